import Verif.Proofs.Sources
import Verif.Spec.Samples
import Verif.Model.Api

/-!
# C38–C43: the crate `emplacable`

Every source of emplacables delivers the value it stands for, drops it when told to, and releases its buffer; `box_new_with`
builds a box. The exceptions found in the code are stated as counterexamples.
-/

namespace Verif
section
variable {σ τ : Type} {T : UTy} {β : Type} [Inhabited β] {c : Cfg} {sz al : Nat}

/-! ## C38: `box_new_with` and `box_new` -/

/-- C38: if `box_new_with(e)` returns, the box holds the value that `e` delivers, in an allocation of exactly its layout
(none if it has no bytes). If `e` unwinds before it has delivered its value, there is no allocation left, and none has been lost.
The process ends only if the allocator refuses exactly that layout, or if `e` ends it.
Partial: if the code of `e` that runs after the emplacer returned unwinds, the box is lost (`C38_counterexample`). -/
theorem C38_boxNewWith_partial {X : Type} {env : Env X} (hv : env.Valid) {e : Emplacable σ T β} {s : σ} (hs : e.Sound c s) {t : Sink.BoxSt T β}
    (ht : t.heap.block = none) :
    (run e (Sink.boxing env) (s, t)).Meets
      (fun _ st => ∃ x p, e.Runs s x (.ok () st.1) ∧ BoxMade c st.2 x p ∧ st.2.heap.leaks = t.heap.leaks)
      (fun st => (e.Unwinds s st.1 ∧ st.2.heap.block = none ∧ st.2.heap.leaks = t.heap.leaks ∧ st.2.made = t.made) ∨
        ∃ x, e.Runs s x (.panic st.1))
      ((∃ md s1, e.Announces s md s1 ∧ 0 < T.sizeOf md ∧ env.alloc ⟨T.sizeOf md, T.alignOf md⟩ = none) ∨ e.Aborts s) := by
  refine (run_meets (Before := fun t' => t'.heap.block = none ∧ t'.heap.leaks = t.heap.leaks ∧ t'.made = t.made)
    (After := fun x t' => ∃ q, BoxMade c t' x q ∧ t'.heap.leaks = t.heap.leaks) (P := fun _ _ => False)
    (A := fun md => 0 < T.sizeOf md ∧ env.alloc ⟨T.sizeOf md, T.alignOf md⟩ = none) hs ⟨ht, rfl, rfl⟩
    (fun st s1 h => boxing_meets env hv ht (hs.metaOk st s1 h))).mono ?_ ?_ ?_
  · rintro _ st ⟨x, _, h1, q, h2, h3⟩; exact ⟨x, q, h1, h2, h3⟩
  · rintro st (⟨_, _, h⟩ | h | ⟨x, _, h, _⟩)
    · exact h.elim
    · exact .inl h
    · exact .inr ⟨x, h⟩
  · exact id

omit [Inhabited β] in
/-- The box made by `box_new_with` is one that can be used as a source again. -/
theorem BoxMade.holds {t : Sink.BoxSt T β} {x : Val T β} {p : Nat} (h : BoxMade c t x p) : BoxHolds c t.heap p x := by
  refine ⟨h.wf, ⟨h.pos, h.align, ?_⟩, h.bytes⟩
  by_cases h0 : x.size = 0
  · rw [h.none h0]; exact h0
  · obtain ⟨b, h1, h2, h3, h4, h5⟩ := h.some (by omega)
    rw [h1]; exact ⟨by omega, h2, h4, by omega, h5⟩

/-- C38 for `box_new`: the box holds the value, in an allocation of exactly its layout. -/
theorem C38_boxNew {X : Type} {env : Env X} (hv : env.Valid) {x : Val T β} (hx : x.WF c) {t : Sink.BoxSt T β} (ht : t.heap.block = none) :
    (Sink.boxNew env x t).Meets
      (fun _ t' => ∃ p, BoxMade c t' x p ∧ t'.heap.leaks = t.heap.leaks) (fun _ => False)
      (0 < x.size ∧ env.alloc ⟨x.size, x.align⟩ = none) := by
  unfold Sink.boxNew
  refine (boxAlloc_meets env hv ht hx.metaOk).bind ?_
  rintro q t1 ⟨h1, h2, h3, h4⟩
  obtain ⟨h', e1, e2, e3, e4⟩ := fill_ok (t := t1) (p := q) (bs := x.bytes) (Nat.le_trans (Nat.le_of_eq hx.bytes_len) h3.span)
  have hnone : x.size = 0 → t1.heap.block = none := by
    intro hz
    have h5 : BlockOk t1.heap q 0 (T.alignOf x.md) := by
      have : T.sizeOf x.md = 0 := hz
      rw [this] at h3; exact h3
    exact h5.none_of_zero
  by_cases h0 : x.size > 0
  · rw [if_pos h0]
    rw [Exec.bind_ok e1]
    exact ⟨q, ⟨rfl, hx, h3.1, h3.2.1, fun hz => e2.trans (hnone hz), fun hz => by
      show ∃ b, h'.block = _ ∧ _
      rw [e2]; exact h4 hz, e4⟩, e3.trans h2⟩
  · rw [if_neg h0]
    refine ⟨q, ⟨rfl, hx, h3.1, h3.2.1, hnone, h4, ?_⟩, h2⟩
    have hb : x.bytes = [] := List.length_eq_zero_iff.1 (by rw [hx.bytes_len]; omega)
    rw [hb]
    intro i hi
    simp at hi

/-! ## C40: emplacables deliver exactly their value -/

omit [Inhabited β] in
/-- C40: an emplacer that takes the value cannot distinguish an emplacable that delivers `x` from the plain value `x`: the outcome
is the same, and so is everything the emplacer did. -/
theorem C40_any_emplacer {e : Emplacable σ T β} {s s' : σ} {x : Val T β} (h : e.Delivers s x s') (env : Env (Val T β))
    {m : Emplacer τ T β} (hm : m.Takes) (t : τ) :
    SameOutcome (run e m (s, t)) (run (given env x) m ([], t)) (fun s1 ds => s1 = s' ∧ ds = []) (fun _ ds => ds = []) :=
  run_delivers h env hm t []

omit [Inhabited β] in
/-- C40: an emplacable that delivers a value fulfils the contract under which `push_with`, `insert_with` and `box_new_with` are
proved correct. -/
theorem C40_sound {e : Emplacable σ T β} {s s' : σ} {x : Val T β} (h : e.Delivers s x s') (hx : x.WF c) : e.Sound c s := by
  obtain ⟨⟨st, s1, s2, h1, h2, h3, h4⟩, h5⟩ := h
  have hs : ∀ st' s1', e s = .ok st' s1' → st' = st ∧ s1' = s1 := by
    intro st' s1' h
    rw [h1] at h; cases h; exact ⟨rfl, rfl⟩
  refine ⟨by rw [h1]; simp, ?_, ?_, ?_, ?_, ?_⟩
  · intro st' s1' h
    rw [h5 st' s1' h, (hs _ _ h).1, h2]; rfl
  · intro st' s1' h
    rw [(hs _ _ h).1, h2]; exact hx.metaOk
  · intro st' s1' h
    obtain ⟨rfl, rfl⟩ := hs _ _ h
    rw [h3]; intro h; cases h
  · intro st' s1' bs s2' h h'
    obtain ⟨rfl, rfl⟩ := hs _ _ h
    rw [h3] at h'; cases h'
    exact ⟨by rw [hx.bytes_len, h2]; rfl, by rw [h4]; intro h; cases h⟩
  · intro st' s1' bs s2' h h'
    obtain ⟨rfl, rfl⟩ := hs _ _ h
    rw [h3] at h'; cases h'

omit [Inhabited β] in
/-- C40: it delivers no other value. -/
theorem C40_runs_unique {e : Emplacable σ T β} {s s' : σ} {x y : Val T β} {r : Res σ Unit} (h : e.Delivers s x s') (hr : e.Runs s y r) :
    y = x ∧ r = .ok () s' := by
  obtain ⟨⟨st, s1, s2, h1, h2, h3, h4⟩, _⟩ := h
  obtain ⟨st', s1', s2', h1', h2', h3', h4'⟩ := hr
  rw [h1] at h1'; cases h1'
  rw [h3] at h3'
  injection h3' with e1 e2
  subst e2
  rw [h4] at h4'
  refine ⟨?_, h4'.symm⟩
  cases x; cases y
  cases h2; cases h2'; cases e1; rfl

/-- C40: `box_new_with`, `Emplacable::get`, and `push_with` and `insert_with` of the three kinds of vectors take the value. -/
theorem C40_emplacers {X : Type} (env : Env X) (l : Layout) {A : ATy} (envA : Env (Val A.ty β)) (envU : Env (Val T β))
    (envS : Env (Val (sizedTy sz al) β)) (i : Nat) :
    (Sink.boxing env : Emplacer (Sink.BoxSt T β) T β).Takes ∧ (Sink.getting l : Emplacer (List β) T β).Takes ∧
    ((alignedP c A).pushWith envA).Takes ∧ ((alignedP c A).insertWithUnchecked envA i).Takes ∧
    ((unalignedP c T).pushWith envU).Takes ∧ ((unalignedP c T).insertWithUnchecked envU i).Takes ∧
    ((sizedP c sz al).pushWith envS).Takes ∧ ((sizedP c sz al).insertWithUnchecked envS i).Takes := by
  refine ⟨?_, ?_, ?_, ?_, ?_, ?_, ?_, ?_⟩ <;> intro l md
  · show PlacesOnly _
    exact PlacesOnly.bind fun _ => .place _ _ _
  · show PlacesOnly _
    exact PlacesOnly.place _ _ _
  · show PlacesOnly _
    exact PlacesOnly.bind fun _ => .bind fun _ => .bind fun _ => .bind fun _ => .place _ _ _
  · show PlacesOnly _
    exact PlacesOnly.bind fun _ => .bind fun _ => .bind fun _ => .bind fun _ => .bind fun _ => .bind fun _ => .bind fun _ => .bind fun _ => .place _ _ _
  · show PlacesOnly _
    exact PlacesOnly.bind fun _ => .bind fun _ => .bind fun _ => .bind fun _ => .bind fun _ => .place _ _ _
  · show PlacesOnly _
    exact PlacesOnly.bind fun _ => .bind fun _ => .bind fun _ => .bind fun _ => .bind fun _ => .bind fun _ => .bind fun _ => .bind fun _ =>
      .bind fun _ => .place _ _ _
  · show PlacesOnly _
    exact PlacesOnly.bind fun _ => .bind fun _ => .bind fun _ => .bind fun _ => .place _ _ _
  · show PlacesOnly _
    exact PlacesOnly.bind fun _ => .bind fun _ => .bind fun _ => .bind fun _ => .bind fun _ => .bind fun _ => .bind fun _ => .place _ _ _

omit [Inhabited β] in
/-- C40 for a value. -/
theorem C40_value (env : Env (Val T β)) (x : Val T β) (s : Source.St (Val T β) β) : (Source.value env x).Delivers s x s :=
  ⟨⟨_, _, _, rfl, rfl, rfl, rfl⟩, by rintro st s1 h; cases h; rfl⟩

omit [Inhabited β] in
/-- C40 for `&str`, `&CStr`, `&OsStr` and `&Path`. -/
theorem C40_text (bs : List β) (s : σ) : (Source.text bs : Emplacable σ (sliceTy 1 1) β).Delivers s ⟨(bs.length : Nat), bs⟩ s := by
  refine ⟨⟨_, _, _, rfl, rfl, rfl, rfl⟩, ?_⟩
  rintro st s1 h; cases h
  show Layout.mk _ _ = Layout.mk (bs.length * 1) 1
  rw [Nat.mul_one]

omit [Inhabited β] in
/-- C40: the bytes of a string are the string. -/
theorem C40_strToBytes {e : Emplacable σ (sliceTy 1 1) β} {s s' : σ} {x : Val (sliceTy 1 1) β} (h : e.Delivers s x s') :
    Emplacable.Delivers (Source.strToBytes e) s x s' := by
  exact h

/-- C40 for `Box<T>`: the value in the box is delivered, and the box is released. -/
theorem C40_box {s : Source.St (Val T β) β} {p : Nat} {x : Val T β} (hb : BoxHolds c s.heap p x) (env : Env (Val T β)) :
    ∃ s', (Source.boxed env p x.md).Delivers s x s' ∧ s'.drops = s.drops ∧ s'.heap.block = none ∧ s'.heap.leaks = s.heap.leaks := by
  obtain ⟨h', hrel, hnone, hleak⟩ := release_ok (s := s) hb.block
  have hread : s.heap.read p 0 (T.sizeOf x.md) = some x.bytes := hb.read
  refine ⟨_, ⟨⟨_, _, _, rfl, rfl, ?_, hrel⟩, ?_⟩, rfl, hnone, hleak⟩
  · dsimp only; rw [hread]
  · rintro st s1 h; cases h; rfl

omit [Inhabited β] in
/-- C40 for a slice of cloneable elements (that are not `Copy`): the clones are delivered. -/
theorem C40_cloned {clone : List β → Exec σ (List β)} {xs : List (List β)} {ys : List (Val (sizedTy sz al) β)} {s s' : σ}
    (h : Cloned clone xs s (ys.map Val.bytes) s') (hs : AllSized ys) :
    (Source.cloned sz al clone xs).Delivers s (sliceOf ys) s' := by
  have hl : xs.length = ys.length := by rw [h.length_eq, List.length_map]
  refine ⟨⟨_, _, _, rfl, ?_, ?_, rfl⟩, ?_⟩
  · exact hl
  · show Source.cloneToBuf sz clone xs [] s = _
    rw [cloneToBuf_cloned h (by simpa [AllSized] using hs)]
    rfl
  · rintro st s1 h; cases h
    show Layout.mk (xs.length * sz) al = Layout.mk (ys.length * sz) al
    rw [hl]

omit [Inhabited β] in
/-- C40: if the `clone` of an element panics, the emplacable unwinds. -/
theorem C40_cloned_unwinds {clone : List β → Exec σ (List β)} {xs rest : List (List β)} {x : List β} {ys : List (List β)} {s s1 s' : σ}
    (h : Cloned clone xs s ys s1) (hs : ∀ y ∈ ys, y.length = sz) (hp : clone x s1 = .panic s') :
    (Source.cloned sz al clone (xs ++ x :: rest)).Unwinds s s' := by
  refine .inr ⟨_, _, ys.flatten, rfl, ?_⟩
  show Source.cloneToBuf sz clone (xs ++ x :: rest) [] s = _
  rw [cloneToBuf_append h hs, Source.cloneToBuf, hp]
  rfl

omit [Inhabited β] in
/-- What the slice emplacable for `T: Copy` delivers instead of the slice: the first bytes of the wide pointer to it (data pointer,
then length); beyond these it is undefined behaviour. Slices without bytes are delivered as they are. -/
theorem C40_copied_partial (wide : List β) (len : Nat) (s : σ) :
    (len * sz = 0 → (Source.copied sz al wide len : Emplacable σ (sliceTy sz al) β).Delivers s ⟨(len : Nat), []⟩ s) ∧
    (len * sz ≤ wide.length → (Source.copied sz al wide len : Emplacable σ (sliceTy sz al) β).Delivers s ⟨(len : Nat), wide.take (len * sz)⟩ s) ∧
    (wide.length < len * sz → ∃ st, (Source.copied sz al wide len : Emplacable σ (sliceTy sz al) β) s = .ok st s ∧ st.write s = .ub) := by
  have h2 : len * sz ≤ wide.length →
      (Source.copied sz al wide len : Emplacable σ (sliceTy sz al) β).Delivers s ⟨(len : Nat), wide.take (len * sz)⟩ s := by
    intro h
    refine ⟨⟨_, _, _, rfl, rfl, ?_, rfl⟩, by rintro st s1 h; cases h; rfl⟩
    show Source.copyToBuf sz wide len s = _
    unfold Source.copyToBuf
    rw [if_pos h]
  refine ⟨fun h => ?_, h2, fun h => ⟨_, rfl, ?_⟩⟩
  · have := h2 (by omega)
    rw [h, List.take_zero] at this
    exact this
  · show Source.copyToBuf sz wide len s = _
    unfold Source.copyToBuf
    rw [if_neg (by omega)]

omit [Inhabited β] in
/-- C40: unsizing keeps the bytes and the rest of the behaviour, and announces the new metadata. -/
theorem C40_unsize {U : UTy} {md : U.Meta} (hsz : U.sizeOf md = sz) (hal : U.alignOf md = al) {e : Emplacable σ (sizedTy sz al) β} {s s' : σ}
    {x : Val (sizedTy sz al) β} (h : e.Delivers s x s') : Emplacable.Delivers (Source.unsize sz al U md e) s (⟨md, x.bytes⟩ : Val U β) s' := by
  obtain ⟨⟨st, s1, s2, h1, h2, h3, h4⟩, h5⟩ := h
  have e1 : Source.unsize sz al U md e s = .ok ⟨⟨sz, al⟩, md, st.write, st.dropVal, st.finish⟩ s1 := by
    unfold Source.unsize
    rw [Exec.bind_ok h1]; rfl
  refine ⟨⟨_, _, _, e1, rfl, h3, h4⟩, ?_⟩
  rintro st' s1' h
  rw [e1] at h; cases h
  show Layout.mk sz al = Layout.mk (U.sizeOf md) (U.alignOf md)
  rw [hsz, hal]

omit [Inhabited β] in
/-- C40: an emplacable that has been unsized is dropped like the one it was made from. -/
theorem C40_unsize_drop {U : UTy} (md : U.Meta) (e : Emplacable σ (sizedTy sz al) β) (s : σ) (t : τ) :
    run (Source.unsize sz al U md e) Sink.dropping (s, t) = run e Sink.dropping (s, t) := by
  rw [run_dropping, run_dropping]
  have : Source.drop (Source.unsize sz al U md e) s = Source.drop e s := by
    unfold Source.drop Source.unsize
    rw [Exec.bind_apply, Exec.bind_apply, Exec.bind_apply]
    cases e s <;> rfl
  unfold liftL
  rw [this]

omit [Inhabited β] in
/-- C40 for an array of emplacables: their values one after the other. -/
theorem C40_array {es : List (Emplacable σ (sizedTy sz al) β)} {s s' : σ} {xs : List (Val (sizedTy sz al) β)} (h : Delivered es s xs s')
    (hs : AllSized xs) : (Source.array sz al es).Delivers s (arrayOf xs es.length) s' := by
  refine ⟨⟨_, _, _, rfl, rfl, ?_, rfl⟩, by rintro st s1 h; cases h; rfl⟩
  show Source.writeItems sz es.length es [] s = _
  have := writeItems_delivered h hs 0 [] []
  simp only [Nat.add_zero, List.append_nil, List.nil_append] at this
  rw [this]
  rfl

omit [Inhabited β] in
/-- C40 for an array of emplacables, turned into a slice. -/
theorem C40_arrayToSlice {es : List (Emplacable σ (sizedTy sz al) β)} {s s' : σ} {xs : List (Val (sizedTy sz al) β)} (h : Delivered es s xs s')
    (hs : AllSized xs) : Emplacable.Delivers (Source.arrayToSlice sz al es.length (Source.array sz al es)) s (sliceOf xs) s' := by
  have h1 := C40_unsize (U := sliceTy sz al) (md := (es.length : Nat)) rfl rfl (C40_array h hs)
  have h2 : (sliceOf xs : Val (sliceTy sz al) β) = ⟨(es.length : Nat), (arrayOf xs es.length).bytes⟩ := by
    rw [h.append_bytes]; rfl
  rw [h2]
  exact h1

/-- C38 and C40: `box_new_with` of an emplacable that delivers `x` makes a box with `x`. -/
theorem C38_delivers {X : Type} {env : Env X} (hv : env.Valid) {e : Emplacable σ T β} {s s' : σ} {x : Val T β} (h : e.Delivers s x s') (hx : x.WF c)
    {t : Sink.BoxSt T β} (ht : t.heap.block = none) :
    (run e (Sink.boxing env) (s, t)).Meets
      (fun _ st => st.1 = s' ∧ ∃ p, BoxMade c st.2 x p ∧ st.2.heap.leaks = t.heap.leaks) (fun _ => False)
      (0 < x.size ∧ env.alloc ⟨x.size, x.align⟩ = none) := by
  obtain ⟨⟨st, s1, s2, h1, h2, h3, h4⟩, h5⟩ := h
  have hu : ∀ s', ¬ e.Unwinds s s' := by
    rintro s' (h | ⟨st', s1', bs, h, h'⟩)
    · rw [h1] at h; cases h
    · rw [h1] at h; cases h; rw [h3] at h'; cases h'
  have hd : e.Delivers s x s' := ⟨⟨st, s1, s2, h1, h2, h3, h4⟩, h5⟩
  refine (C38_boxNewWith_partial hv (C40_sound hd hx) ht).mono ?_ ?_ ?_
  · rintro _ st ⟨y, p, hr, hb, hl⟩
    obtain ⟨rfl, he⟩ := C40_runs_unique hd hr
    injection he with _ he
    exact ⟨he, p, hb, hl⟩
  · rintro st (⟨h, _⟩ | ⟨y, hr⟩)
    · exact hu _ h
    · have := (C40_runs_unique hd hr).2
      cases this
  · rintro (⟨md, s1', ⟨st', h, rfl⟩, h6, h7⟩ | h)
    · rw [h1] at h; cases h
      rw [h2] at h6 h7
      exact ⟨h6, h7⟩
    · exfalso
      rcases h with h | ⟨st', s1', h, h6⟩
      · rw [h1] at h; cases h
      · rw [h1] at h; cases h
        rcases h6 with h6 | ⟨bs, s2', h6, h7⟩
        · rw [h3] at h6; cases h6
        · rw [h3] at h6; cases h6; rw [h4] at h7; cases h7

/-! ## C41: a `Vec` as a source -/

/-- C41: the elements of the vector are delivered as a slice of the same length, and the buffer is released; but the announced
layout is that of the whole buffer.
Partial: it is the layout of the slice only if the vector has no spare capacity (or its elements no bytes);
otherwise see `C41_counterexample`. -/
theorem C41_vector_partial {s : Source.St (Val (sizedTy sz al) β) β} {p cap : Nat} {xs : List (Val (sizedTy sz al) β)}
    (hv : VecHolds c s.heap p cap xs) (env : Env (Val (sizedTy sz al) β)) :
    ∃ s', Emplacable.Runs (Source.vector c sz al env p xs.length cap) s (sliceOf xs) (.ok () s') ∧
      s'.drops = s.drops ∧ s'.heap.block = none ∧ s'.heap.leaks = s.heap.leaks ∧
      (cap = xs.length ∨ sz = 0 ↔ Emplacable.Delivers (Source.vector c sz al env p xs.length cap) s (sliceOf xs) s') := by
  obtain ⟨h', hrel, hnone, hleak⟩ := release_ok (s := s) hv.block
  obtain ⟨st, h1, h2, h3, h4, h5, h6⟩ := vector_started hv env
  have hr : Emplacable.Runs (Source.vector c sz al env p xs.length cap) s (sliceOf xs) (.ok () { s with heap := h' }) :=
    ⟨st, s, s, h1, h3, h4, by rw [h6]; exact hrel⟩
  refine ⟨_, hr, rfl, hnone, hleak, ?_, ?_⟩
  · intro h
    refine ⟨hr, ?_⟩
    intro st' s1 h'
    rw [h1] at h'; cases h'
    rw [h2]
    show Layout.mk _ _ = Layout.mk (xs.length * sz) al
    rcases h with h | h
    · rw [h]
    · have h1 : cap * sz = 0 := by simp [h]
      have h2 : xs.length * sz = 0 := by simp [h]
      rw [h1, h2]
  · rintro ⟨_, h⟩
    have := h st s h1
    rw [h2] at this
    have e : cap * sz = xs.length * sz := congrArg Layout.size this
    rcases Nat.eq_zero_or_pos sz with h0 | h0
    · exact .inr h0
    · exact .inl (Nat.eq_of_mul_eq_mul_right h0 e)

/-! ## C39: dropped exactly once or not at all -/

omit [Inhabited β] in
/-- C39: taking the value of an emplacable leaves the source in the state in which it delivered it; in particular nothing is
dropped (see the theorems of C40 and C41 for that state). -/
theorem C39_take {e : Emplacable σ T β} {s s' s1 : σ} {x : Val T β} (h : e.Delivers s x s') {m : Emplacer τ T β} (hm : m.Takes) {t t1 : τ}
    (hr : run e m (s, t) = .ok () (s1, t1)) : s1 = s' := by
  have h1 := C40_any_emplacer h ⟨fun _ => none, fun _ => .error .allocError, true, fun _ => false⟩ hm t
  rw [hr] at h1
  revert h1
  cases run (given ⟨fun _ => none, fun _ => .error .allocError, true, fun _ => false⟩ x) m ([], t) with
  | ok u st => intro h1; exact h1.2.1
  | _ => intro h1; exact h1.elim

omit [Inhabited β] in
/-- C39 for a value: dropping the emplacable drops it once, forgetting it does not drop it. -/
theorem C39_value (env : Env (Val T β)) (x : Val T β) (s : Source.St (Val T β) β) (t : τ) :
    run (Source.value env x) Sink.dropping (s, t) =
      (if env.dropPanics x then .panic ({ s with drops := s.drops ++ [x] }, t) else .ok () ({ s with drops := s.drops ++ [x] }, t)) ∧
    run (Source.value env x) Sink.forgetting (s, t) = .ok () (s, t) := by
  refine ⟨?_, rfl⟩
  rw [run_dropping]
  unfold liftL Source.drop Source.value
  rw [Exec.pure_bind_apply]
  dsimp only
  rw [Exec.bind_apply]
  unfold Source.dropValue
  cases env.dropPanics x <;> rfl

/-- C39 for `Box<T>`: dropping the emplacable drops the value once and releases the box; forgetting it releases the box without
dropping the value. Partial: if the destructor panics, the box is not released (`C39_counterexample_box`). -/
theorem C39_box_partial {s : Source.St (Val T β) β} {p : Nat} {x : Val T β} (hb : BoxHolds c s.heap p x) (env : Env (Val T β)) (t : τ) :
    (∃ s1, run (Source.boxed env p x.md) Sink.forgetting (s, t) = .ok () (s1, t) ∧ s1.drops = s.drops ∧ s1.heap.block = none ∧
      s1.heap.leaks = s.heap.leaks) ∧
    (env.dropPanics x = false → ∃ s1, run (Source.boxed env p x.md) Sink.dropping (s, t) = .ok () (s1, t) ∧
      s1.drops = s.drops ++ [x] ∧ s1.heap.block = none ∧ s1.heap.leaks = s.heap.leaks) ∧
    (env.dropPanics x = true → ∃ s1, run (Source.boxed env p x.md) Sink.dropping (s, t) = .panic (s1, t) ∧
      s1.drops = s.drops ++ [x] ∧ s1.heap = s.heap) := by
  have hf := boxed_run hb env Sink.forgetting t
  have hd := boxed_run hb env Sink.dropping t
  have e1 : run (given env x) Sink.forgetting (s.drops, t) = .ok () (s.drops, t) := rfl
  have e2 : env.dropPanics x = false → run (given env x) Sink.dropping (s.drops, t) = .ok () (s.drops ++ [x], t) := by
    intro h
    rw [run_dropping]
    have : Source.drop (given env x) s.drops = .ok () (s.drops ++ [x]) := by
      unfold Source.drop given givenAs
      rw [Exec.pure_bind_apply]
      dsimp only
      rw [Exec.bind_ok (a := ()) (s' := s.drops ++ [x]) (by unfold dropGiven; rw [if_neg (by simp [h])])]
      rfl
    exact liftL_ok this
  have e3 : env.dropPanics x = true → run (given env x) Sink.dropping (s.drops, t) = .panic (s.drops ++ [x], t) := by
    intro h
    rw [run_dropping]
    have : Source.drop (given env x) s.drops = .panic (s.drops ++ [x]) := by
      unfold Source.drop given givenAs
      rw [Exec.pure_bind_apply]
      dsimp only
      rw [Exec.bind_panic (s' := s.drops ++ [x]) (by unfold dropGiven; rw [if_pos h])]
    exact liftL_panic this
  refine ⟨?_, fun h => ?_, fun h => ?_⟩
  · rw [e1] at hf
    revert hf
    cases hr : run (Source.boxed env p x.md) Sink.forgetting (s, t) with
    | ok u st => obtain ⟨s1, t1⟩ := st; rintro ⟨rfl, h1, h2, h3⟩; exact ⟨s1, rfl, h1, h2, h3⟩
    | _ => intro h; exact h.elim
  · rw [e2 h] at hd
    revert hd
    cases hr : run (Source.boxed env p x.md) Sink.dropping (s, t) with
    | ok u st => obtain ⟨s1, t1⟩ := st; rintro ⟨rfl, h1, h2, h3⟩; exact ⟨s1, rfl, h1, h2, h3⟩
    | _ => intro h; exact h.elim
  · rw [e3 h] at hd
    revert hd
    cases hr : run (Source.boxed env p x.md) Sink.dropping (s, t) with
    | panic st => obtain ⟨s1, t1⟩ := st; rintro ⟨rfl, h1, h2⟩; exact ⟨s1, rfl, h1, h2⟩
    | _ => intro h; exact h.elim

/-- C39 for `Vec<T>`: forgetting the emplacable releases the buffer without dropping the elements; dropping it drops every element
once, in order, and releases the buffer. Partial: if a destructor panics, the elements after it are not dropped and the buffer is not
released. -/
theorem C39_vector_partial {s : Source.St (Val (sizedTy sz al) β) β} {p cap : Nat} {xs : List (Val (sizedTy sz al) β)}
    (hv : VecHolds c s.heap p cap xs) (env : Env (Val (sizedTy sz al) β)) (t : τ) :
    (∃ s1, run (Source.vector c sz al env p xs.length cap) Sink.forgetting (s, t) = .ok () (s1, t) ∧ s1.drops = s.drops ∧
      s1.heap.block = none ∧ s1.heap.leaks = s.heap.leaks) ∧
    ((∀ x ∈ xs, env.dropPanics x = false) → ∃ s1, run (Source.vector c sz al env p xs.length cap) Sink.dropping (s, t) = .ok () (s1, t) ∧
      s1.drops = s.drops ++ xs ∧ s1.heap.block = none ∧ s1.heap.leaks = s.heap.leaks) ∧
    (∀ ys y zs, xs = ys ++ y :: zs → (∀ x ∈ ys, env.dropPanics x = false) → env.dropPanics y = true →
      run (Source.vector c sz al env p xs.length cap) Sink.dropping (s, t) = .panic ({ s with drops := s.drops ++ ys ++ [y] }, t)) := by
  obtain ⟨st, h1, h2, h3, h4, h5, h6⟩ := vector_started hv env
  obtain ⟨hd1, hd2⟩ := dropElems_eq hv env xs.length 0 (by omega) s.drops
  rw [List.drop_zero] at hd1 hd2
  refine ⟨?_, fun h => ?_, fun ys y zs h hp hy => ?_⟩
  · obtain ⟨h', hrel, hnone, hleak⟩ := release_ok (s := s) hv.block
    exact ⟨{ s with heap := h' }, by rw [run_forgetting h1, h6, liftL_ok hrel], rfl, hnone, hleak⟩
  · obtain ⟨h', hrel, hnone, hleak⟩ := release_ok (s := { s with drops := s.drops ++ xs }) hv.block
    refine ⟨{ heap := h', drops := s.drops ++ xs }, ?_, rfl, hnone, hleak⟩
    rw [run_dropping, liftL_ok]
    unfold Source.drop
    rw [Exec.bind_ok h1, h5, Exec.bind_ok (hd1 h), h6]
    exact hrel
  · rw [run_dropping, liftL_panic]
    unfold Source.drop
    rw [Exec.bind_ok h1, h5, Exec.bind_panic (hd2 ys y zs h hp hy)]

omit [Inhabited β] in
/-- C39 for borrowed sources: there is nothing to drop or to release. -/
theorem C39_borrowed (bs : List β) (clone : List β → Exec σ (List β)) (xs : List (List β)) (wide : List β) (len : Nat) (s : σ) (t : τ) :
    run (Source.text bs : Emplacable σ (sliceTy 1 1) β) Sink.dropping (s, t) = .ok () (s, t) ∧
    run (Source.text bs : Emplacable σ (sliceTy 1 1) β) Sink.forgetting (s, t) = .ok () (s, t) ∧
    run (Source.cloned sz al clone xs) Sink.dropping (s, t) = .ok () (s, t) ∧
    run (Source.cloned sz al clone xs) Sink.forgetting (s, t) = .ok () (s, t) ∧
    run (Source.copied sz al wide len : Emplacable σ (sliceTy sz al) β) Sink.dropping (s, t) = .ok () (s, t) ∧
    run (Source.copied sz al wide len : Emplacable σ (sliceTy sz al) β) Sink.forgetting (s, t) = .ok () (s, t) :=
  ⟨rfl, rfl, rfl, rfl, rfl, rfl⟩

omit [Inhabited β] in
theorem dropped_values (env : Env (Val T β)) (xs : List (Val T β)) (hp : ∀ x ∈ xs, env.dropPanics x = false) (s : Source.St (Val T β) β) :
    Dropped (xs.map (Source.value env)) s { s with drops := s.drops ++ xs } := by
  induction xs generalizing s with
  | nil => rw [List.append_nil]; exact .nil s
  | cons x xs ih =>
    have h1 := (C39_value env x s ()).1
    rw [if_neg (by simp [hp x (by simp)])] at h1
    have h2 := ih (fun y hy => hp y (by simp [hy])) { s with drops := s.drops ++ [x] }
    have e : s.drops ++ [x] ++ xs = s.drops ++ x :: xs := by simp
    dsimp only at h2
    rw [e] at h2
    exact .cons h1 h2

omit [Inhabited β] in
theorem delivered_values (env : Env (Val (sizedTy sz al) β)) (xs : List (Val (sizedTy sz al) β)) (s : Source.St (Val (sizedTy sz al) β) β) :
    Delivered (xs.map (Source.value env)) s xs s := by
  induction xs with
  | nil => exact .nil s
  | cons x xs ih => exact .cons (C40_value env x s).1 ih

omit [Inhabited β] in
/-- C39 for an array of emplacables: dropping it drops them all, in order; forgetting it drops none. -/
theorem C39_array {es : List (Emplacable σ (sizedTy sz al) β)} {s : σ} (t : τ) :
    (∀ s', Dropped es s s' → run (Source.array sz al es) Sink.dropping (s, t) = .ok () (s', t)) ∧
    run (Source.array sz al es) Sink.forgetting (s, t) = .ok () (s, t) := by
  refine ⟨fun s' h => ?_, rfl⟩
  rw [run_dropping, liftL_ok]
  unfold Source.drop Source.array
  rw [Exec.pure_bind_apply]
  dsimp only
  rw [Exec.bind_ok h.dropAll]
  rfl

/-- How many destructors panic. -/
def panicking {X : Type} (env : Env X) (xs : List X) : Nat := (xs.filter env.dropPanics).length

omit [Inhabited β] in
/-- C39 for an array of values with panicking destructors: one panic does not keep the other elements from being dropped; two panics
end the process. -/
theorem C39_array_values (env : Env (Val (sizedTy sz al) β)) (xs : List (Val (sizedTy sz al) β)) (s : Source.St (Val (sizedTy sz al) β) β) (t : τ) :
    run (Source.array sz al (xs.map (Source.value env))) Sink.dropping (s, t) =
      (match panicking env xs with
        | 0 => .ok () ({ s with drops := s.drops ++ xs }, t)
        | 1 => .panic ({ s with drops := s.drops ++ xs }, t)
        | _ => .abort) := by
  have key : ∀ s : Source.St (Val (sizedTy sz al) β) β, Source.dropAll (xs.map (Source.value env)) s =
      (match panicking env xs with
        | 0 => .ok () { s with drops := s.drops ++ xs }
        | 1 => .panic { s with drops := s.drops ++ xs }
        | _ => .abort) := by
    induction xs with
    | nil => intro s; simp [panicking, Source.dropAll]
    | cons x xs ih =>
      intro s
      have e : s.drops ++ [x] ++ xs = s.drops ++ x :: xs := by simp
      have h0 : Source.drop (Source.value env x) s =
          if env.dropPanics x then .panic { s with drops := s.drops ++ [x] } else .ok () { s with drops := s.drops ++ [x] } := by
        unfold Source.drop Source.value
        rw [Exec.pure_bind_apply]
        dsimp only
        rw [Exec.bind_apply]
        unfold Source.dropValue
        cases env.dropPanics x <;> rfl
      have ih' := ih { s with drops := s.drops ++ [x] }
      dsimp only at ih'
      rw [e] at ih'
      show (Exec.onUnwind (Source.drop (Source.value env x)) (Source.dropAll (xs.map (Source.value env))) >>= fun _ =>
        Source.dropAll (xs.map (Source.value env))) s = _
      by_cases hp : env.dropPanics x = true
      · rw [if_pos hp] at h0
        have hc : panicking env (x :: xs) = panicking env xs + 1 := by simp [panicking, hp]
        rw [hc, Exec.bind_apply]
        unfold Exec.onUnwind
        rw [h0]
        dsimp only
        rw [ih']
        rcases panicking env xs with _ | _ | n <;> rfl
      · rw [if_neg hp] at h0
        have hc : panicking env (x :: xs) = panicking env xs := by simp [panicking, hp]
        rw [hc, Exec.bind_ok (a := ()) (s' := { s with drops := s.drops ++ [x] }) (by unfold Exec.onUnwind; rw [h0]), ih']
  rw [run_dropping]
  have h1 : Source.drop (Source.array sz al (xs.map (Source.value env))) s =
      (match panicking env xs with
        | 0 => .ok () { s with drops := s.drops ++ xs }
        | 1 => .panic { s with drops := s.drops ++ xs }
        | _ => .abort) := by
    unfold Source.drop Source.array
    rw [Exec.pure_bind_apply]
    dsimp only
    rw [Exec.bind_apply, key s]
    rcases panicking env xs with _ | _ | n <;> rfl
  unfold liftL
  rw [h1]
  rcases panicking env xs with _ | _ | n <;> rfl

omit [Inhabited β] in
/-- C39 for `Emplacable::get`: the buffer holds the value, and the source is in the state after delivery. -/
theorem C39_get {e : Emplacable σ (sizedTy sz al) β} {s s' : σ} {x : Val (sizedTy sz al) β} (h : e.Delivers s x s') (hx : x.bytes.length = sz)
    (t : List β) : run e (Sink.getting ⟨sz, al⟩) (s, t) = .ok () (s', x.bytes) := by
  obtain ⟨⟨st, s1, s2, h1, h2, h3, h4⟩, h5⟩ := h
  rw [run_place h1 (t1 := t) rfl]
  have hst : ((do Exec.require (x.bytes.length ≤ sz); Exec.set x.bytes : Exec (List β) Unit)) t = .ok () x.bytes := by
    rw [Exec.bind_ok (Exec.require_pos (by omega) t)]
    rfl
  have hp : placeInto st.write (fun bs => (do Exec.require (bs.length ≤ sz); Exec.set bs : Exec (List β) Unit)) (pure ()) (s1, t) =
      .ok () (s2, x.bytes) := by
    unfold placeInto
    dsimp only
    rw [h3]
    exact liftR_ok hst
  rw [Exec.bind_ok hp]
  have hq : liftR (pure () : Exec (List β) Unit) (s2, x.bytes) = .ok () (s2, x.bytes) := rfl
  rw [Exec.bind_ok hq]
  exact liftL_ok h4

/-! ## C42: `with_emplacable_for` -/

omit [Inhabited β] in
/-- C42, as far as it is true. If `f` returns, nothing more happens to the value: it has been dropped or moved as often as `f` did
through the emplacable. If `f` unwinds, the value is dropped once more than `f` did.
Partial: so it is dropped twice, or dropped after having been moved, if `f` unwinds after having used the emplacable
(`C42_counterexample`). -/
theorem C42_withEmplacableFor_partial {R : Type} (env : Env (Val T β)) (x : Val T β)
    (f : Emplacable (Source.St (Val T β) β) T β → Exec (Source.St (Val T β) β × τ) R) (st : Source.St (Val T β) β × τ) :
    (∀ r st', f (Source.value env x) st = .ok r st' → Source.withEmplacableFor env x f st = .ok r st') ∧
    (∀ s t, f (Source.value env x) st = .panic (s, t) → env.dropPanics x = false →
      Source.withEmplacableFor env x f st = .panic ({ s with drops := s.drops ++ [x] }, t)) := by
  refine ⟨fun r st' h => ?_, fun s t h hp => ?_⟩
  · unfold Source.withEmplacableFor Exec.onUnwind
    rw [h]
  · unfold Source.withEmplacableFor Exec.onUnwind
    rw [h]
    dsimp only
    rw [liftL_ok (a := ()) (s' := { s with drops := s.drops ++ [x] })]
    unfold Source.dropValue
    rw [if_neg (by simp [hp])]

omit [Inhabited β] in
/-- C42 for the uses of the emplacable that return: taking the value moves it without dropping it, dropping the emplacable drops it
once, forgetting the emplacable does not drop it. -/
theorem C42_uses (env : Env (Val T β)) (x : Val T β) (s : Source.St (Val T β) β) (t : τ) :
    (∀ m : Emplacer τ T β, m.Takes → ∀ s1 t1,
      Source.withEmplacableFor env x (fun e => run e m) (s, t) = .ok () (s1, t1) →
        s1 = s ∧ ∃ ds, run (given env x) m ([], t) = .ok () (ds, t1)) ∧
    (env.dropPanics x = false → Source.withEmplacableFor env x (fun e => run e Sink.dropping) (s, t) = .ok () ({ s with drops := s.drops ++ [x] }, t)) ∧
    Source.withEmplacableFor env x (fun e => run e Sink.forgetting) (s, t) = .ok () (s, t) := by
  refine ⟨fun m hm s1 t1 h => ?_, fun hp => ?_, ?_⟩
  · have h0 : run (Source.value env x) m (s, t) = .ok () (s1, t1) := by
      cases hr : run (Source.value env x) m (s, t) with
      | ok u st =>
        rw [(C42_withEmplacableFor_partial env x (fun e => run e m) (s, t)).1 _ _ hr] at h
        rw [h]
      | panic st =>
        exfalso
        unfold Source.withEmplacableFor Exec.onUnwind at h
        dsimp only at h
        rw [hr] at h
        dsimp only at h
        cases hh : liftL (Source.dropValue env x) st <;> rw [hh] at h <;> cases h
      | abort =>
        exfalso
        unfold Source.withEmplacableFor Exec.onUnwind at h
        dsimp only at h
        rw [hr] at h
        cases h
      | ub =>
        exfalso
        unfold Source.withEmplacableFor Exec.onUnwind at h
        dsimp only at h
        rw [hr] at h
        cases h
    have h1 := C40_any_emplacer (C40_value env x s) env hm t
    refine ⟨C39_take (C40_value env x s) hm h0, ?_⟩
    rw [h0] at h1
    revert h1
    cases hr : run (given env x) m ([], t) with
    | ok u st => obtain ⟨ds, t2⟩ := st; intro h1; exact ⟨ds, by rw [h1.1]⟩
    | _ => intro h1; exact h1.elim
  · refine (C42_withEmplacableFor_partial env x _ (s, t)).1 () _ ?_
    have := (C39_value env x s t).1
    rw [if_neg (by simp [hp])] at this
    exact this
  · exact (C42_withEmplacableFor_partial env x _ (s, t)).1 () _ (C39_value env x s t).2

/-! ## C43: building a slice from an iterator -/

omit [Inhabited β] in
/-- C43: if there are at least `n` items, the emplacable made by `from_iter` delivers the slice of the first `n` of them, in order; the
remaining ones are dropped, not placed. -/
theorem C43_items {n : Nat} (ho : ElemOk c sz al n) {es : List (Emplacable σ (sizedTy sz al) β)} (hn : n ≤ es.length) {s s1 s' : σ}
    {xs : List (Val (sizedTy sz al) β)} (hd : Delivered (es.take n) s xs s1) (hs : AllSized xs) (hr : Dropped (es.drop n) s1 s') :
    ∃ e, Source.fromIter c sz al es n s = .ok e s ∧ e.Delivers s (sliceOf xs) s' ∧ xs.length = n := by
  have hlen : xs.length = n := by
    rw [← hd.append_bytes, List.length_take]; omega
  refine ⟨_, fromIter_ok ho es s, ⟨⟨_, _, _, rfl, hlen.symm, ?_, rfl⟩, ?_⟩, hlen⟩
  · show Source.writeItems sz n es [] s = _
    have h1 := writeItems_delivered hd hs 0 (es.drop n) []
    rw [List.take_append_drop, List.length_take, Nat.min_eq_left hn, Nat.add_zero, List.nil_append] at h1
    rw [h1, Source.writeItems, hr.dropAll]
    rfl
  · rintro st s1 h; cases h
    show Layout.mk (n * sz) al = Layout.mk (xs.length * sz) al
    rw [hlen]

omit [Inhabited β] in
/-- C43: if there are fewer than `n` items, the emplacable unwinds when it is used. -/
theorem C43_short {n : Nat} (ho : ElemOk c sz al n) {es : List (Emplacable σ (sizedTy sz al) β)} (hn : es.length < n) {s s1 : σ}
    {xs : List (Val (sizedTy sz al) β)} (hd : Delivered es s xs s1) (hs : AllSized xs) :
    ∃ e, Source.fromIter c sz al es n s = .ok e s ∧ e.Unwinds s s1 := by
  refine ⟨_, fromIter_ok ho es s, .inr ⟨_, s, (xs.map Val.bytes).flatten, rfl, ?_⟩⟩
  show Source.writeItems sz n es [] s = _
  have h1 := writeItems_delivered hd hs (n - es.length) [] []
  rw [List.append_nil, show es.length + (n - es.length) = n by omega, List.nil_append] at h1
  rw [h1]
  obtain ⟨k, hk⟩ : ∃ k, n - es.length = k + 1 := ⟨n - es.length - 1, by omega⟩
  rw [hk]
  rfl

omit [Inhabited β] in
/-- C43: if the slice would be too large, `from_iter` panics, and all items are dropped. -/
theorem C43_too_large {n : Nat} (hn : c.isizeMax < n * sz + (al - 1)) {es : List (Emplacable σ (sizedTy sz al) β)} {s s' : σ} (hd : Dropped es s s') :
    Source.fromIter c sz al es n s = .panic s' := by
  have e : sz * n = n * sz := Nat.mul_comm _ _
  unfold Source.fromIter Exec.onUnwind
  by_cases h1 : sz * n ≤ c.usizeMax
  · rw [Exec.bind_ok (Exec.assert_pos h1 s), Exec.bind_panic (Exec.assert_neg (by rintro ⟨_, h⟩; omega) s)]
    dsimp only
    rw [hd.dropAll]
  · rw [Exec.bind_panic (Exec.assert_neg h1 s)]
    dsimp only
    rw [hd.dropAll]

omit [Inhabited β] in
/-- C43 and C39 for an iterator of values: the first `n` are delivered, the others dropped; when the emplacable is dropped, all are dropped;
when it is forgotten, none is. -/
theorem C43_values {n : Nat} (ho : ElemOk c sz al n) (env : Env (Val (sizedTy sz al) β)) {xs : List (Val (sizedTy sz al) β)} (hn : n ≤ xs.length)
    (hs : AllSized xs) (hp : ∀ x ∈ xs, env.dropPanics x = false) (s : Source.St (Val (sizedTy sz al) β) β) (t : τ) :
    ∃ e, Source.fromIter c sz al (xs.map (Source.value env)) n s = .ok e s ∧
      e.Delivers s (sliceOf (xs.take n)) { s with drops := s.drops ++ xs.drop n } ∧
      run e Sink.dropping (s, t) = .ok () ({ s with drops := s.drops ++ xs }, t) ∧
      run e Sink.forgetting (s, t) = .ok () (s, t) := by
  have h1 : Delivered ((xs.map (Source.value env)).take n) s (xs.take n) s := by
    rw [← List.map_take]; exact delivered_values env _ s
  have h2 : Dropped ((xs.map (Source.value env)).drop n) s { s with drops := s.drops ++ xs.drop n } := by
    rw [← List.map_drop]; exact dropped_values env _ (fun x hx => hp x (List.mem_of_mem_drop hx)) s
  obtain ⟨e, h3, h4, _⟩ := C43_items ho (by simpa using hn) h1 (fun x hx => hs x (List.mem_of_mem_take hx)) h2
  refine ⟨e, h3, h4, ?_, ?_⟩
  · rw [fromIter_ok ho] at h3; cases h3
    rw [run_dropping, liftL_ok]
    unfold Source.drop Source.iterated
    rw [Exec.pure_bind_apply]
    dsimp only
    rw [Exec.bind_ok (dropped_values env xs hp s).dropAll]
    rfl
  · rw [fromIter_ok ho] at h3; cases h3
    rfl

end

namespace Sample

/-- A box with `[1, 2, 3]`. -/
def boxSt : Source.St (Val Bytes.ty Nat) Nat := ⟨⟨fun i => [1, 2, 3].getD i 0, some ⟨4096, 3, 3, 1⟩, 0⟩, []⟩

theorem boxSt_holds : BoxHolds c64 boxSt.heap 4096 (bytes [1, 2, 3]) :=
  ⟨bytes_wf _ (by decide) _ (.inl rfl), by refine ⟨?_, ?_, ?_, ?_, ?_, ?_, ?_⟩ <;> decide, by decide⟩

/-- A byte as a value of type `u8`. -/
def byte (b : Nat) : Val (sizedTy 1 1) Nat := ⟨(), [b]⟩

/-- A `Vec<u8>` with the elements 1 and 2 and capacity 4. -/
def vecSt : Source.St (Val (sizedTy 1 1) Nat) Nat := ⟨⟨fun i => [1, 2].getD i 0, some ⟨4096, 4, 4, 1⟩, 0⟩, []⟩

theorem vecSt_holds : VecHolds c64 vecSt.heap 4096 4 [byte 1, byte 2] :=
  ⟨⟨⟨0, by decide, rfl⟩, Nat.one_dvd _, by decide⟩, by intro x hx; simp at hx; rcases hx with rfl | rfl <;> rfl, by decide, by decide,
    by refine ⟨?_, ?_, ?_, ?_, ?_, ?_, ?_⟩ <;> decide, by decide⟩

/-- The same without spare capacity. -/
def fullSt : Source.St (Val (sizedTy 1 1) Nat) Nat := ⟨⟨fun i => [1, 2].getD i 0, some ⟨4096, 2, 2, 1⟩, 0⟩, []⟩

theorem fullSt_holds : VecHolds c64 fullSt.heap 4096 2 [byte 1, byte 2] :=
  ⟨⟨⟨0, by decide, rfl⟩, Nat.one_dvd _, by decide⟩, by intro x hx; simp at hx; rcases hx with rfl | rfl <;> rfl, by decide, by decide,
    by refine ⟨?_, ?_, ?_, ?_, ?_, ?_, ?_⟩ <;> decide, by decide⟩

/-- Nothing is allocated. -/
def noBox {T : UTy} : Sink.BoxSt T Nat := ⟨⟨fun _ => 0, none, 0⟩, none⟩

/-- A value that is handed over by an emplacable whose own code panics afterwards. -/
def lateFail : Emplacable Unit Bytes.ty Nat :=
  (pure ⟨⟨2, 1⟩, (2 : Nat), fun _ => .done [7, 8] (), pure (), fun _ => .panic ()⟩ : Exec _ (Started Unit Bytes.ty Nat))

theorem lateFail_sound : lateFail.Sound c64 () where
  noUb := by intro h; cases h
  layout := by intro st s1 h; cases h; rfl
  metaOk := by intro st s1 h; cases h; exact ⟨⟨0, by decide, rfl⟩, Nat.one_dvd _, by decide⟩
  writeNoUb := by intro st s1 h h'; cases h; cases h'
  done := by intro st s1 bs s2 h h'; cases h; cases h'; exact ⟨rfl, by intro h; cases h⟩
  unwind := by intro st s1 bs s2 h h'; cases h; cases h'

/-- Is the outcome undefined behaviour? -/
def wentWrong {σ α : Type} : Res σ α → Bool
  | .ub => true
  | _ => false

end Sample

open Sample

/-! ## The theorems apply, and where the code differs -/

/-- C38 is not true when the emplacable unwinds after the value has been built: the box is lost. -/
theorem C38_counterexample : lateFail.Sound c64 () ∧ (noBox : Sink.BoxSt Bytes.ty Nat).heap.block = none ∧
    ∃ st, run lateFail (Sink.boxing (env : Env Unit)) ((), noBox) = .panic st ∧ st.2.heap.block = some ⟨4096, 2, 2, 1⟩ :=
  ⟨lateFail_sound, rfl, _, rfl, rfl⟩

/-- `C38_boxNewWith_partial` and `C38_boxNew` for a concrete value; the box is made, and is a source again. -/
example : ∃ st, run (Source.value env (bytes [1, 2, 3])) (Sink.boxing (env : Env Unit)) (boxSt, noBox) = .ok () st ∧
    st.2.made = some (4096, (3 : Nat)) ∧ st.2.heap.block = some ⟨4096, 3, 3, 1⟩ := ⟨_, rfl, rfl, rfl⟩
example : ∃ t, Sink.boxNew (env : Env Unit) (bytes [1, 2, 3]) noBox = .ok () t ∧ t.made = some (4096, (3 : Nat)) := ⟨_, rfl, rfl⟩
example : ∃ t, Sink.boxNew (env : Env Unit) (bytes []) noBox = .ok () t ∧ t.heap.block = none := ⟨_, rfl, rfl⟩
example :=
  C38_boxNewWith_partial (t := noBox) (env_valid (X := Unit)) (given_sound (bytes_wf [1, 2, 3] (by decide) c64 (.inl rfl)) env []) rfl
example : Sink.boxNew (envFull : Env Unit) (bytes [1, 2, 3]) noBox = .abort := rfl

/-- C39 is not true of `Box<T>` when the destructor panics: the box is not released. -/
theorem C39_counterexample_box : BoxHolds c64 boxSt.heap 4096 (bytes [1, 2, 3]) ∧
    ∃ st, run (Source.boxed envPanics 4096 (bytes [1, 2, 3]).md) Sink.dropping (boxSt, ()) = .panic st ∧
      st.1.heap.block = some ⟨4096, 3, 3, 1⟩ :=
  ⟨boxSt_holds, _, rfl, rfl⟩

/-- C39 is not true of `Vec<T>` when a destructor panics: the buffer is not released and the second element never dropped. -/
theorem C39_counterexample_vector : VecHolds c64 vecSt.heap 4096 4 [byte 1, byte 2] ∧
    ∃ st, run (Source.vector c64 1 1 envPanics 4096 2 4) Sink.dropping (vecSt, ()) = .panic st ∧
      st.1.heap.block = some ⟨4096, 4, 4, 1⟩ ∧ st.1.drops = [byte 1] :=
  ⟨vecSt_holds, _, rfl, rfl, rfl⟩

/-- C39 is not true of `Box<T>` when the emplacer unwinds: neither is the value dropped nor the box released. -/
theorem C39_counterexample_unwinding : BoxHolds c64 boxSt.heap 4096 (bytes [1, 2, 3]) ∧
    ∃ st, run (Source.boxed env 4096 (bytes [1, 2, 3]).md) (fun _ _ t => .panic t) (boxSt, ()) = .panic st ∧
      st.1.heap.block = some ⟨4096, 3, 3, 1⟩ ∧ st.1.drops = [] :=
  ⟨boxSt_holds, _, rfl, rfl, rfl⟩

example : ∃ st, run (Source.boxed env 4096 (bytes [1, 2, 3]).md) Sink.dropping (boxSt, ()) = .ok () st ∧ st.1.heap.block = none ∧
    st.1.drops = [bytes [1, 2, 3]] := ⟨_, rfl, rfl, rfl⟩
example : ∃ s', (Source.boxed env 4096 (bytes [1, 2, 3]).md).Delivers boxSt (bytes [1, 2, 3]) s' ∧ s'.drops = [] ∧ s'.heap.block = none ∧ s'.heap.leaks = 0 :=
  C40_box boxSt_holds env
example := C39_box_partial boxSt_holds env ()
example := C39_vector_partial vecSt_holds env ()
example : run (Source.array 1 1 ([byte 1, byte 2].map (Source.value envPanics))) Sink.dropping (vecSt, ()) = .abort :=
  C39_array_values envPanics [byte 1, byte 2] vecSt ()
example : run (Source.value env (byte 5)) (Sink.getting ⟨1, 1⟩) (vecSt, []) = .ok () (vecSt, [5]) :=
  C39_get (C40_value env (byte 5) vecSt) rfl []

/-- C40 is not true of slices of `Copy` elements: here the slice `[1, 2, 3]` at address 65536 is delivered as the bytes of the
address and of the length. -/
theorem C40_counterexample_copied :
    ∃ bs, (Source.copied 1 1 [0, 0, 1, 0, 0, 0, 0, 0, 3, 0, 0, 0, 0, 0, 0, 0] 3 : Emplacable Unit (sliceTy 1 1) Nat).Delivers () ⟨(3 : Nat), bs⟩ () ∧
      bs = [0, 0, 1] :=
  ⟨_, (C40_copied_partial (sz := 1) (al := 1) _ 3 ()).2.1 (by decide), rfl⟩

/-- … and longer slices read past the wide pointer. -/
theorem C40_counterexample_copied_ub :
    run (Source.copied 1 1 (List.replicate 16 0) 17 : Emplacable Unit (sliceTy 1 1) Nat) (Sink.boxing (env : Env Unit)) ((), noBox) = .ub := rfl

/-- Cloning adds one to the byte. -/
example : (Source.cloned 1 1 (fun bs => pure (bs.map (· + 1))) [[1], [2]] : Emplacable Unit (sliceTy 1 1) Nat).Delivers ()
    (sliceOf [byte 2, byte 3]) () :=
  C40_cloned (.cons rfl (.cons rfl (.nil ()))) (by intro x hx; simp at hx; rcases hx with rfl | rfl <;> rfl)
example : (Source.cloned 1 1 (fun bs => if bs = [2] then fun s => .panic s else pure bs) [[1], [2], [3]] : Emplacable Unit (sliceTy 1 1) Nat).Unwinds () () :=
  C40_cloned_unwinds (xs := [[1]]) (ys := [[1]]) (.cons rfl (.nil ())) (by simp) rfl
example : Emplacable.Delivers (Source.arrayToSlice 1 1 2 (Source.array 1 1 ([byte 1, byte 2].map (Source.value env)))) vecSt (sliceOf [byte 1, byte 2]) vecSt :=
  C40_arrayToSlice (delivered_values env [byte 1, byte 2] vecSt) (by intro x hx; simp at hx; rcases hx with rfl | rfl <;> rfl)
example : Emplacable.Delivers (Source.unsize 1 1 Dyn (1, 1) (Source.value env (byte 4))) vecSt (dyn 1 [4]) vecSt :=
  C40_unsize (U := Dyn) (md := (1, 1)) (sz := 1) (al := 1) rfl rfl (C40_value env (byte 4) vecSt)

/-- C41 is not true of a vector with spare capacity: the layout is that of the buffer. -/
theorem C41_counterexample : VecHolds c64 vecSt.heap 4096 4 [byte 1, byte 2] ∧
    ∃ st s, Source.vector c64 1 1 env 4096 2 4 vecSt = .ok st s ∧ st.layout = ⟨4, 1⟩ ∧
      (sliceOf [byte 1, byte 2]).size = 2 :=
  ⟨vecSt_holds, _, _, rfl, rfl, rfl⟩

/-- A consequence: pushed into an `UnsizedVec<[u8]>` it becomes a slice of four bytes; two of them have never been written. -/
theorem C41_counterexample_push :
    ∃ st, run (Source.vector c64 1 1 env 4096 2 4 : Emplacable _ Bytes.ty Nat) (AVec.pushWith c64 env) (vecSt, vecA) = .ok () st ∧
      (st.2.elems.map fun e => e.endOff) = [1, 3, 6, 10] :=
  ⟨_, rfl, rfl⟩

/-- Another one: a box made from it is deallocated with another layout than it was allocated with, when it is dropped. -/
theorem C41_counterexample_box :
    ∃ st, run (Source.vector c64 1 1 env 4096 2 4 : Emplacable _ Bytes.ty Nat) (Sink.boxing (env : Env Unit)) (vecSt, noBox) = .ok () st ∧
      st.2.made = some (4096, (2 : Nat)) ∧
      wentWrong (run (Source.boxed env 4096 (show Bytes.ty.Meta from (2 : Nat))) Sink.dropping ((⟨st.2.heap, []⟩ : Source.St (Val Bytes.ty Nat) Nat), ())) = true :=
  ⟨_, rfl, rfl, rfl⟩

example : ∃ s', Emplacable.Delivers (Source.vector c64 1 1 env 4096 2 2) fullSt (sliceOf [byte 1, byte 2]) s' := by
  obtain ⟨s', _, _, _, _, h⟩ := C41_vector_partial fullSt_holds env
  exact ⟨s', h.1 (.inl rfl)⟩

/-- C42 is not true if `f` unwinds after having used the emplacable: here the value has been moved into a box and is dropped as well. -/
theorem C42_counterexample :
    ∃ st, Source.withEmplacableFor env (bytes [1, 2]) (fun e => do run e (Sink.boxing (env : Env Unit)); fun s => .panic s : _ → Exec _ Unit) (boxSt, noBox) = .panic st ∧
      st.2.made = some (4096, (2 : Nat)) ∧ st.1.drops = [bytes [1, 2]] :=
  ⟨_, rfl, rfl, rfl⟩

/-- … and here it is dropped twice. -/
theorem C42_counterexample_twice :
    ∃ st, Source.withEmplacableFor env (bytes [1, 2]) (fun e => do run e Sink.dropping; fun s => .panic s : _ → Exec _ Unit) (boxSt, ()) = .panic st ∧
      st.1.drops = [bytes [1, 2], bytes [1, 2]] :=
  ⟨_, rfl, rfl⟩

example := C42_uses env (bytes [1, 2]) boxSt ()

example : ∃ e, Source.fromIter c64 1 1 ([byte 1, byte 2, byte 3].map (Source.value env)) 2 vecSt = .ok e vecSt ∧
    e.Delivers vecSt (sliceOf [byte 1, byte 2]) { vecSt with drops := [byte 3] } := by
  obtain ⟨e, h1, h2, _⟩ := C43_values (c := c64) (n := 2) ⟨⟨0, by decide, rfl⟩, Nat.one_dvd _, by decide⟩ env (xs := [byte 1, byte 2, byte 3]) (by decide)
    (by intro x hx; simp at hx; rcases hx with rfl | rfl | rfl <;> rfl) (fun _ _ => rfl) vecSt ()
  exact ⟨e, h1, h2⟩
example : ∃ e, Source.fromIter c64 1 1 ([byte 1].map (Source.value env)) 2 vecSt = .ok e vecSt ∧ e.Unwinds vecSt vecSt :=
  C43_short ⟨⟨0, by decide, rfl⟩, Nat.one_dvd _, by decide⟩ (by decide) (delivered_values env [byte 1] vecSt)
    (by intro x hx; simp at hx; rcases hx with rfl; rfl)
example : Source.fromIter c64 1 1 ([byte 1].map (Source.value env)) (2 ^ 63) vecSt = .panic { vecSt with drops := [byte 1] } :=
  C43_too_large (by decide) (dropped_values env [byte 1] (fun _ _ => rfl) vecSt)

end Verif

