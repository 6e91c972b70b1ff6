import Verif.Spec.Source
import Verif.Proofs.Impl
import Verif.Proofs.Storage

/-!
# Lemmas about the sources and sinks of the crate `emplacable`
-/

namespace Verif
variable {σ τ : Type} {T : UTy} {β : Type}

/-! ### Generalities -/

theorem run_forgetting {e : Emplacable σ T β} {s s1 : σ} {st : Started σ T β} (h : e s = .ok st s1) (t : τ) :
    run e Sink.forgetting (s, t) = liftL st.finish (s1, t) := by
  rw [run_skip (commit := pure ()) h rfl]
  rfl

/-- An emplacer that takes the value cannot tell an emplacable that delivers `x` from the one that just owns `x`. -/
theorem run_delivers {e : Emplacable σ T β} {s s' : σ} {x : Val T β} (h : e.Delivers s x s') (env : Env (Val T β))
    {m : Emplacer τ T β} (hm : m.Takes) (t : τ) (ds : List (Val T β)) :
    SameOutcome (run e m (s, t)) (run (given env x) m (ds, t)) (fun s1 ds1 => s1 = s' ∧ ds1 = ds) (fun _ ds1 => ds1 = ds) := by
  obtain ⟨⟨st, s1, s2, he, hmd, hw, hf⟩, hl⟩ := h
  have hgiven : ∀ s, given env x s = .ok _ s := fun s => rfl
  unfold run
  rw [Exec.bind_ok (liftL_ok he), Exec.bind_ok (liftL_ok (hgiven _)), hl st s1 he, hmd]
  dsimp only
  cases hmm : m ⟨x.size, x.align⟩ x.md t with
  | ub => rw [Exec.bind_ub (liftR_ub hmm), Exec.bind_ub (liftR_ub hmm)]; trivial
  | abort => rw [Exec.bind_abort (liftR_abort hmm), Exec.bind_abort (liftR_abort hmm)]; trivial
  | panic t1 => rw [Exec.bind_panic (liftR_panic hmm), Exec.bind_panic (liftR_panic hmm)]; exact ⟨rfl, rfl⟩
  | ok p t1 =>
    rw [Exec.bind_ok (liftR_ok hmm), Exec.bind_ok (liftR_ok hmm)]
    obtain ⟨store, commit, rollback, rfl⟩ := hm _ _ _ _ _ hmm
    dsimp only
    have e1 : placeInto st.write store rollback (s1, t1) = liftR (store x.bytes) (s2, t1) := by
      unfold placeInto; dsimp only; rw [hw]
    have e2 : placeInto (fun s : List (Val T β) => WriteRes.done x.bytes s) store rollback (ds, t1) =
        liftR (store x.bytes) (ds, t1) := rfl
    cases hs : store x.bytes t1 with
    | ub => rw [liftR_ub hs] at e1 e2; rw [Exec.bind_ub e1, Exec.bind_ub e2]; trivial
    | abort => rw [liftR_abort hs] at e1 e2; rw [Exec.bind_abort e1, Exec.bind_abort e2]; trivial
    | panic t2 => rw [liftR_panic hs] at e1 e2; rw [Exec.bind_panic e1, Exec.bind_panic e2]; exact ⟨rfl, rfl⟩
    | ok u t2 =>
      rw [liftR_ok hs] at e1 e2; rw [Exec.bind_ok e1, Exec.bind_ok e2]
      cases hc : commit t2 with
      | ub => rw [Exec.bind_ub (liftR_ub hc), Exec.bind_ub (liftR_ub hc)]; trivial
      | abort => rw [Exec.bind_abort (liftR_abort hc), Exec.bind_abort (liftR_abort hc)]; trivial
      | panic t1 => rw [Exec.bind_panic (liftR_panic hc), Exec.bind_panic (liftR_panic hc)]; exact ⟨rfl, rfl⟩
      | ok u t3 =>
        rw [Exec.bind_ok (liftR_ok hc), Exec.bind_ok (liftR_ok hc), liftL_ok hf]
        exact ⟨rfl, rfl, rfl⟩

/-! ### Dropping several emplacables -/

theorem Dropped.dropAll {es : List (Emplacable σ T β)} {s s' : σ} (h : Dropped es s s') : Source.dropAll es s = .ok () s' := by
  induction h with
  | nil s => rfl
  | cons hd _ ih =>
    rename_i e es s s1 s' _
    rw [run_dropping] at hd
    have h1 : Source.drop e s = .ok () s1 := by
      unfold liftL at hd
      dsimp only at hd
      cases hh : Source.drop e s with
      | ok a s2 => rw [hh] at hd; cases a; injection hd with _ h; injection h with h _; rw [h]
      | panic s2 => rw [hh] at hd; cases hd
      | abort => rw [hh] at hd; cases hd
      | ub => rw [hh] at hd; cases hd
    show (Exec.onUnwind (Source.drop e) (Source.dropAll es) >>= fun _ => Source.dropAll es) s = _
    rw [Exec.bind_ok (a := ()) (s' := s1) (by unfold Exec.onUnwind; rw [h1])]
    exact ih

/-! ### Writing several items -/

theorem Delivered.append_bytes {sz al : Nat} {es : List (Emplacable σ (sizedTy sz al) β)} {s s' : σ}
    {xs : List (Val (sizedTy sz al) β)} (h : Delivered es s xs s') : es.length = xs.length := by
  induction h with
  | nil => rfl
  | cons _ _ ih => simp [ih]

/-- Items that are all delivered: what happens after them. -/
theorem writeItems_delivered {sz al : Nat} {es : List (Emplacable σ (sizedTy sz al) β)} {s s' : σ}
    {xs : List (Val (sizedTy sz al) β)} (h : Delivered es s xs s') (hsz : AllSized xs) (n : Nat)
    (rest : List (Emplacable σ (sizedTy sz al) β)) (acc : List β) :
    Source.writeItems sz (es.length + n) (es ++ rest) acc s =
      Source.writeItems sz n rest (acc ++ (xs.map Val.bytes).flatten) s' := by
  induction h generalizing acc with
  | nil s => simp
  | cons hr _ ih =>
    rename_i e es s s1 s' x xs _
    obtain ⟨st, s2, s3, h1, _, h3, h4⟩ := hr
    have hlen : x.bytes.length = sz := hsz x (by simp)
    have e1 : (e :: es).length + n = (es.length + n) + 1 := by simp only [List.length_cons]; omega
    rw [e1, List.cons_append, Source.writeItems, h1]
    dsimp only
    rw [h3]
    dsimp only
    rw [if_pos hlen, h4]
    dsimp only
    rw [ih (fun y hy => hsz y (by simp [hy]))]
    simp

theorem AllSized.flatten_length {sz al : Nat} {xs : List (Val (sizedTy sz al) β)} (h : AllSized xs) :
    (xs.map Val.bytes).flatten.length = xs.length * sz := by
  induction xs with
  | nil => simp
  | cons x xs ih =>
    have h1 := ih (fun y hy => h y (by simp [hy]))
    have h2 := h x (by simp)
    simp only [List.map_cons, List.flatten_cons, List.length_append, List.length_cons]
    rw [h1, h2, Nat.add_mul]
    omega

/-! ### Cloning a slice -/

theorem cloneToBuf_cloned {sz : Nat} {clone : List β → Exec σ (List β)} {xs ys : List (List β)} {s s' : σ}
    (h : Cloned clone xs s ys s') (hs : ∀ y ∈ ys, y.length = sz) (acc : List β) :
    Source.cloneToBuf sz clone xs acc s = .done (acc ++ ys.flatten) s' := by
  induction h generalizing acc with
  | nil s => simp [Source.cloneToBuf]
  | cons h1 _ ih =>
    unfold Source.cloneToBuf
    rw [h1]
    dsimp only
    rw [if_pos (hs _ (by simp)), ih (fun y hy => hs y (by simp [hy]))]
    simp

theorem cloneToBuf_append {sz : Nat} {clone : List β → Exec σ (List β)} {xs ys : List (List β)} {s s' : σ}
    (h : Cloned clone xs s ys s') (hs : ∀ y ∈ ys, y.length = sz) (rest : List (List β)) (acc : List β) :
    Source.cloneToBuf sz clone (xs ++ rest) acc s = Source.cloneToBuf sz clone rest (acc ++ ys.flatten) s' := by
  induction h generalizing acc with
  | nil s => simp
  | cons h1 _ ih =>
    rw [List.cons_append]
    rw [Source.cloneToBuf]
    rw [h1]
    dsimp only
    rw [if_pos (hs _ (by simp)), ih (fun y hy => hs y (by simp [hy]))]
    simp

theorem Cloned.length_eq {clone : List β → Exec σ (List β)} {xs ys : List (List β)} {s s' : σ}
    (h : Cloned clone xs s ys s') : xs.length = ys.length := by
  induction h with
  | nil => rfl
  | cons _ _ ih => simp [ih]

theorem flatten_length_eq {sz : Nat} {ys : List (List β)} (hs : ∀ y ∈ ys, y.length = sz) : ys.flatten.length = ys.length * sz := by
  induction ys with
  | nil => simp
  | cons y ys ih =>
    simp only [List.flatten_cons, List.length_append, List.length_cons]
    rw [ih (fun z hz => hs z (by simp [hz])), hs y (by simp), Nat.add_mul]
    omega

/-! ### Boxes -/
section
variable [Inhabited β] {c : Cfg}

omit [Inhabited β] in
theorem deallocate_ok {h : Heap β} {p : Nat} {l : Layout} (h0 : 0 < l.size) (hf : h.fits p l) :
    h.deallocate p l = some { h with block := none } := by
  unfold Heap.deallocate
  rw [if_neg (by omega), if_pos hf]

/-- Releasing the buffer of a source. -/
theorem release_ok {X : Type} {s : Source.St X β} {p cap a : Nat} (hb : BlockOk s.heap p cap a) :
    ∃ h', Source.release p ⟨cap, a⟩ s = .ok () { s with heap := h' } ∧ h'.block = none ∧ h'.leaks = s.heap.leaks := by
  unfold Source.release
  by_cases h0 : cap > 0
  · have hd := deallocate_ok (l := ⟨cap, a⟩) h0 (hb.fits h0)
    refine ⟨{ s.heap with block := none }, ?_, rfl, rfl⟩
    rw [if_pos h0, Exec.get_bind, Exec.orUb_bind hd]
    rfl
  · have : cap = 0 := by omega
    subst this
    refine ⟨s.heap, ?_, hb.none_of_zero, rfl⟩
    rw [if_neg (by omega)]
    rfl

theorem BoxHolds.read {h : Heap β} {p : Nat} {x : Val T β} (hb : BoxHolds c h p x) : h.read p 0 x.size = some x.bytes := by
  rw [read_eq (by have := hb.block.span; omega), bytesAt_eq hb.bytes hb.wf.bytes_len]

/-- The box as a source behaves like the value in it. -/
theorem boxed_run {s : Source.St (Val T β) β} {p : Nat} {x : Val T β} (hb : BoxHolds c s.heap p x) (env : Env (Val T β))
    (m : Emplacer τ T β) (t : τ) :
    SameOutcome (run (Source.boxed env p x.md) m (s, t)) (run (given env x) m (s.drops, t))
      (fun s' ds => s'.drops = ds ∧ s'.heap.block = none ∧ s'.heap.leaks = s.heap.leaks)
      (fun s' ds => s'.drops = ds ∧ s'.heap = s.heap) := by
  have hread : s.heap.read p 0 (T.sizeOf x.md) = some x.bytes := hb.read
  obtain ⟨h', hrel, hnone, hleak⟩ := release_ok (s := s) hb.block
  obtain ⟨h'', hrel2, hnone2, hleak2⟩ := release_ok (s := { s with drops := s.drops ++ [x] }) hb.block
  have hg : Gives (fun (s' : Source.St (Val T β) β) l => (l = [] → s'.heap.block = none ∧ s'.heap.leaks = s.heap.leaks) ∧
      (l ≠ [] → s'.heap = s.heap)) Source.St.drops env
      { layout := ⟨T.sizeOf x.md, T.alignOf x.md⟩
        md := x.md
        write := fun s =>
          match s.heap.read p 0 (T.sizeOf x.md) with
          | some bs => .done bs s
          | none => .ub
        dropVal := do
          let s ← Exec.get
          let bs ← Exec.orUb (s.heap.read p 0 (T.sizeOf x.md))
          Source.dropValue env ⟨x.md, bs⟩
        finish := Source.release p ⟨T.sizeOf x.md, T.alignOf x.md⟩ } s s x x.align [x] [] := by
    refine ⟨rfl, rfl, ⟨⟨fun h => absurd h (by simp), fun _ => rfl⟩, rfl⟩, ?_, ?_, ?_⟩
    · dsimp only
      rw [hread]
    · exact ⟨_, hrel, ⟨fun _ => ⟨hnone, hleak⟩, fun h => absurd rfl h⟩, rfl⟩
    · refine ⟨{ s with drops := s.drops ++ [x] }, ?_, ⟨fun h => absurd h (by simp), fun _ => rfl⟩, rfl, ?_⟩
      · dsimp only
        rw [Exec.get_bind, Exec.orUb_bind (a := x.bytes) hread]
        rfl
      · exact ⟨_, hrel2, ⟨fun _ => ⟨hnone2, hleak2⟩, fun h => absurd rfl h⟩, rfl⟩
  have h1 : SameOutcome _ (run (given env x) m (s.drops, t)) _ _ := hg.run (e := Source.boxed env p x.md) rfl m t
  revert h1
  unfold SameOutcome
  cases run (given env x) m (s.drops, t) <;> cases run (Source.boxed env p x.md) m (s, t) <;> intro h1
  · exact ⟨h1.1, h1.2.2, h1.2.1.1 rfl⟩
  all_goals first | exact h1.elim | skip
  · exact ⟨h1.1, h1.2.2, h1.2.1.2 (by simp)⟩
  all_goals trivial

/-! ### Vectors as sources -/

omit [Inhabited β] in
theorem sliceOf_size {sz al : Nat} (xs : List (Val (sizedTy sz al) β)) : (sliceOf xs).size = xs.length * sz := rfl

theorem elem_layout {sz al n : Nat} (ho : ElemOk c sz al n) : layoutUnchecked c (n * sz) al = some ⟨n * sz, al⟩ := by
  obtain ⟨k, hk, rfl⟩ := ho.align_pow
  unfold layoutUnchecked
  rw [if_pos]
  refine ⟨?_, ho.size_le⟩
  unfold ValidAlign.variants
  exact List.mem_map.2 ⟨k, List.mem_range.2 hk, by rw [Nat.shiftLeft_eq, Nat.one_mul]⟩

omit [Inhabited β] in
theorem ElemOk.sliceWF {sz al n : Nat} (ho : ElemOk c sz al n) {xs : List (Val (sizedTy sz al) β)} (hx : AllSized xs)
    (hn : xs.length ≤ n) : (sliceOf xs).WF c := by
  refine ⟨hx.flatten_length, ho.align_pow, ?_, ?_⟩
  · exact Nat.dvd_trans ho.align_dvd (Nat.dvd_mul_left _ _)
  · have h1 : xs.length * sz ≤ n * sz := Nat.mul_le_mul_right _ hn
    have h2 := ho.size_le
    show xs.length * sz + (al - 1) ≤ _
    omega

variable {sz al : Nat}

theorem VecHolds.read_all {h : Heap β} {p cap : Nat} {xs : List (Val (sizedTy sz al) β)} (hv : VecHolds c h p cap xs) :
    h.read p 0 (xs.length * sz) = some (xs.map Val.bytes).flatten := by
  have h1 : xs.length * sz ≤ cap * sz := Nat.mul_le_mul_right _ hv.len
  rw [read_eq (by have := hv.block.span; omega), bytesAt_eq hv.bytes hv.sized.flatten_length]

omit [Inhabited β] in
theorem flatten_getElem_sized {xs : List (Val (sizedTy sz al) β)} (h : AllSized xs) {mem : Nat → β}
    (hb : BytesAre mem 0 (xs.map Val.bytes).flatten) (i : Nat) (hi : i < xs.length) : BytesAre mem (i * sz) xs[i].bytes := by
  induction xs generalizing mem i with
  | nil => simp at hi
  | cons x xs ih =>
    have hx : x.bytes.length = sz := h x (by simp)
    cases i with
    | zero =>
      intro j hj
      have hj' : j < x.bytes.length := hj
      have := hb j (by simp only [List.map_cons, List.flatten_cons, List.length_append]; omega)
      simp only [List.map_cons, List.flatten_cons, Nat.zero_add] at this
      rw [List.getElem_append_left hj'] at this
      simpa using this
    | succ i =>
      have h2 : BytesAre (fun k => mem (sz + k)) 0 (xs.map Val.bytes).flatten := by
        intro j hj
        have := hb (sz + j) (by simp only [List.map_cons, List.flatten_cons, List.length_append]; omega)
        simp only [List.map_cons, List.flatten_cons, Nat.zero_add] at this
        rw [List.getElem_append_right (by omega)] at this
        simp only [Nat.zero_add]
        rw [this]
        congr 1
        omega
      have h3 := ih (fun y hy => h y (by simp [hy])) h2 i (by simpa using hi)
      intro j hj
      have h4 := h3 j (by simpa using hj)
      simp only at h4
      have e : (i + 1) * sz + j = sz + (i * sz + j) := by rw [Nat.add_mul]; omega
      rw [e, h4]
      simp

theorem VecHolds.read_elem {h : Heap β} {p cap : Nat} {xs : List (Val (sizedTy sz al) β)} (hv : VecHolds c h p cap xs)
    (i : Nat) (hi : i < xs.length) : h.read p (i * sz) sz = some xs[i].bytes := by
  have h1 : (i + 1) * sz ≤ cap * sz := Nat.mul_le_mul_right _ (by have := hv.len; omega)
  rw [Nat.add_mul] at h1
  rw [read_eq (by have := hv.block.span; omega),
    bytesAt_eq (flatten_getElem_sized hv.sized hv.bytes i hi) (hv.sized _ (List.getElem_mem hi))]

/-- Dropping the elements of a vector one after the other: the first panicking destructor ends it. -/
theorem dropElems_eq {s : Source.St (Val (sizedTy sz al) β) β} {p cap : Nat} {xs : List (Val (sizedTy sz al) β)}
    (hv : VecHolds c s.heap p cap xs) (env : Env (Val (sizedTy sz al) β)) (n i : Nat) (hn : i + n = xs.length) (ds : List (Val (sizedTy sz al) β)) :
    ((∀ x ∈ xs.drop i, env.dropPanics x = false) →
      Source.dropElems sz al env p i n { s with drops := ds } = .ok () { s with drops := ds ++ xs.drop i }) ∧
    ∀ ys y zs, xs.drop i = ys ++ y :: zs → (∀ x ∈ ys, env.dropPanics x = false) → env.dropPanics y = true →
      Source.dropElems sz al env p i n { s with drops := ds } = .panic { s with drops := ds ++ ys ++ [y] } := by
  induction n generalizing i ds with
  | zero =>
    have h0 : xs.drop i = [] := List.drop_eq_nil_of_le (by omega)
    rw [h0]
    refine ⟨fun _ => ?_, fun ys y zs h => ?_⟩
    · rw [List.append_nil]; rfl
    · simp at h
  | succ n ih =>
    have hi : i < xs.length := by omega
    have hc : xs.drop i = xs[i] :: xs.drop (i + 1) := List.drop_eq_getElem_cons hi
    have hval : (⟨(), xs[i].bytes⟩ : Val (sizedTy sz al) β) = xs[i] := by cases xs[i]; rfl
    obtain ⟨ih1, ih2⟩ := ih (i + 1) (by omega) (ds ++ [xs[i]])
    have hread := hv.read_elem i hi
    have hstep : ∀ r, ((Source.dropValue env xs[i] : Exec (Source.St (Val (sizedTy sz al) β) β) Unit) >>=
          fun _ => Source.dropElems sz al env p (i + 1) n) { s with drops := ds } = r →
        Source.dropElems sz al env p i (n + 1) { s with drops := ds } = r := by
      intro r hr
      unfold Source.dropElems
      rw [Exec.get_bind, Exec.orUb_bind hread, hval]
      exact hr
    rw [hc]
    refine ⟨fun hp => hstep _ ?_, fun ys y zs h hp hy => hstep _ ?_⟩
    · have h0 : env.dropPanics xs[i] = false := hp _ List.mem_cons_self
      rw [Exec.bind_ok (a := ()) (s' := { s with drops := ds ++ [xs[i]] }) (by unfold Source.dropValue; rw [if_neg (by simp [h0])])]
      rw [ih1 (fun x hx => hp x (List.mem_cons_of_mem _ hx)), List.append_assoc]
      rfl
    · cases ys with
      | nil =>
        simp only [List.nil_append, List.cons.injEq] at h
        obtain ⟨rfl, _⟩ := h
        rw [Exec.bind_panic (s' := { s with drops := ds ++ [xs[i]] }) (by unfold Source.dropValue; rw [if_pos hy])]
        simp
      | cons z ys =>
        simp only [List.cons_append, List.cons.injEq] at h
        obtain ⟨rfl, h⟩ := h
        have h0 : env.dropPanics xs[i] = false := hp _ List.mem_cons_self
        rw [Exec.bind_ok (a := ()) (s' := { s with drops := ds ++ [xs[i]] }) (by unfold Source.dropValue; rw [if_neg (by simp [h0])])]
        rw [ih2 ys y zs h (fun x hx => hp x (List.mem_cons_of_mem _ hx)) hy]
        simp

/-! ### `box_new_with` -/

theorem fill_ok {t : Sink.BoxSt T β} {p : Nat} {bs : List β} (h : bs.length ≤ t.heap.span p) :
    ∃ h', Sink.fill p bs t = .ok () { t with heap := h' } ∧ h'.block = t.heap.block ∧ h'.leaks = t.heap.leaks ∧ BytesAre h'.mem 0 bs := by
  have hw := write_eq (h := t.heap) (p := p) (dst := 0) (bs := bs) (by omega)
  refine ⟨{ t.heap with mem := fun i => if 0 ≤ i ∧ i < 0 + bs.length then bs.getD (i - 0) default else t.heap.mem i }, ?_, rfl, rfl,
    bytesAre_written t.heap.mem 0 bs⟩
  unfold Sink.fill
  rw [Exec.get_bind, Exec.orUb_bind hw]
  rfl

theorem sinkDealloc_ok {t : Sink.BoxSt T β} {p cap a : Nat} (hb : BlockOk t.heap p cap a) :
    ∃ h', Sink.dealloc p ⟨cap, a⟩ t = .ok () { t with heap := h' } ∧ h'.block = none ∧ h'.leaks = t.heap.leaks := by
  unfold Sink.dealloc
  by_cases h0 : cap ≠ 0
  · have hd := deallocate_ok (l := ⟨cap, a⟩) (Nat.pos_of_ne_zero h0) (hb.fits (Nat.pos_of_ne_zero h0))
    refine ⟨{ t.heap with block := none }, ?_, rfl, rfl⟩
    rw [if_pos h0, Exec.get_bind, Exec.orUb_bind hd]
    rfl
  · have : cap = 0 := by omega
    subst this
    refine ⟨t.heap, ?_, hb.none_of_zero, rfl⟩
    rw [if_neg (by omega)]
    rfl

/-- The allocation of `box_new_with`. -/
theorem boxAlloc_meets {X : Type} (env : Env X) (hv : env.Valid) {t : Sink.BoxSt T β} (ht : t.heap.block = none) {md : T.Meta} (hm : MetaOk c md) :
    (Sink.boxAlloc env ⟨T.sizeOf md, T.alignOf md⟩ t).Meets
      (fun q t1 => t1.made = t.made ∧ t1.heap.leaks = t.heap.leaks ∧ BlockOk t1.heap q (T.sizeOf md) (T.alignOf md) ∧
        (0 < T.sizeOf md → ∃ b, t1.heap.block = some b ∧ b.addr = q ∧ b.reqSize = T.sizeOf md ∧ b.align = T.alignOf md ∧ T.sizeOf md ≤ b.granted))
      (fun _ => False) (0 < T.sizeOf md ∧ env.alloc ⟨T.sizeOf md, T.alignOf md⟩ = none) := by
  obtain ⟨k, hk, hal⟩ := hm.align_pow
  have hpos : 0 < T.alignOf md := by rw [hal]; exact Nat.two_pow_pos k
  unfold Sink.boxAlloc
  by_cases h0 : T.sizeOf md = 0
  · dsimp only
    rw [if_pos h0]
    refine ⟨rfl, rfl, ⟨hpos, Nat.dvd_refl _, ?_⟩, fun h => by omega⟩
    rw [ht]; exact h0
  · dsimp only
    rw [if_neg h0]
    rw [Exec.get_bind]
    unfold Heap.allocate
    cases ha : env.alloc ⟨T.sizeOf md, T.alignOf md⟩ with
    | none => exact ⟨by omega, rfl⟩
    | some r =>
      obtain ⟨q, x⟩ := r
      dsimp only
      rw [Exec.set_bind]
      obtain ⟨h1, h2⟩ := hv _ _ _ hpos ha
      refine ⟨rfl, ?_, ⟨h1, h2, ?_⟩, fun _ => ⟨_, rfl, rfl, rfl, rfl, ?_⟩⟩
      · simp [Heap.fresh, ht]
      · exact ⟨by omega, rfl, rfl, Nat.le_refl _, Nat.le_add_right _ _⟩
      · exact Nat.le_add_right _ _

/-- What the emplacer of `box_new_with` prepares. -/
theorem boxing_meets {X : Type} (env : Env X) (hv : env.Valid) {t : Sink.BoxSt T β} (ht : t.heap.block = none) {md : T.Meta} (hm : MetaOk c md) :
    (Sink.boxing env ⟨T.sizeOf md, T.alignOf md⟩ md t).Meets
      (fun p t1 => p.Places t1 (T.sizeOf md) (fun t' => t'.heap.block = none ∧ t'.heap.leaks = t.heap.leaks ∧ t'.made = t.made)
        (fun bs t' => ∃ q, BoxMade c t' ⟨md, bs⟩ q ∧ t'.heap.leaks = t.heap.leaks))
      (fun _ => False) (0 < T.sizeOf md ∧ env.alloc ⟨T.sizeOf md, T.alignOf md⟩ = none) := by
  unfold Sink.boxing
  refine (boxAlloc_meets env hv ht hm).bind ?_
  rintro q t1 ⟨h1, h2, h3, h4⟩
  refine ⟨_, _, _, rfl, ?_, ?_⟩
  · intro bs hbs
    obtain ⟨h', e1, e2, e3, _⟩ := fill_ok (t := t1) (p := q) (bs := bs) (Nat.le_trans hbs h3.span)
    obtain ⟨h'', e4, e5, e6⟩ := sinkDealloc_ok (t := { t1 with heap := h' }) (h3.mem_eq e2)
    exact ⟨_, _, e1, e4, e5, by rw [e6]; exact e3.trans h2, h1⟩
  · intro bs hbs
    obtain ⟨h', e1, e2, e3, e4⟩ := fill_ok (t := t1) (p := q) (bs := bs) (Nat.le_trans (Nat.le_of_eq hbs) h3.span)
    refine ⟨_, _, e1, rfl, q, ⟨rfl, hm.wf hbs, h3.1, h3.2.1, ?_, ?_, e4⟩, e3.trans h2⟩
    · intro hz
      have h5 : BlockOk t1.heap q 0 (T.alignOf md) := by
        have : T.sizeOf md = 0 := hz
        rw [this] at h3; exact h3
      exact e2.trans h5.none_of_zero
    · intro hz
      show ∃ b, h'.block = _ ∧ _
      rw [e2]; exact h4 hz

/-- Whenever the emplacer reaches the inner closure, it gives it a pointer. -/
def PlacesOnly (m : Exec τ (Prepared τ β)) : Prop :=
  ∀ t p t1, m t = .ok p t1 → ∃ store commit rollback, p = .place store commit rollback

omit [Inhabited β] in
theorem PlacesOnly.bind {α : Type} {m : Exec τ α} {k : α → Exec τ (Prepared τ β)} (h : ∀ a, PlacesOnly (k a)) : PlacesOnly (m >>= k) := by
  intro t p t1 h1
  rw [Exec.bind_apply] at h1
  cases hm : m t with
  | ok a t' => rw [hm] at h1; exact h a t' p t1 h1
  | panic _ => rw [hm] at h1; cases h1
  | abort => rw [hm] at h1; cases h1
  | ub => rw [hm] at h1; cases h1

omit [Inhabited β] in
theorem PlacesOnly.place (store : List β → Exec τ Unit) (commit rollback : Exec τ Unit) :
    PlacesOnly (pure (.place store commit rollback) : Exec τ (Prepared τ β)) := by
  intro t p t1 h; cases h; exact ⟨_, _, _, rfl⟩

theorem vector_started {s : Source.St (Val (sizedTy sz al) β) β} {p cap : Nat} {xs : List (Val (sizedTy sz al) β)}
    (hv : VecHolds c s.heap p cap xs) (env : Env (Val (sizedTy sz al) β)) :
    ∃ st, Source.vector c sz al env p xs.length cap s = .ok st s ∧ st.layout = ⟨cap * sz, al⟩ ∧ st.md = (sliceOf xs).md ∧
      st.write s = .done (sliceOf xs).bytes s ∧ st.dropVal = Source.dropElems sz al env p 0 xs.length ∧
      st.finish = Source.release p ⟨cap * sz, al⟩ := by
  unfold Source.vector
  have h1 : uncheckedMul c cap sz = some (cap * sz) := if_pos hv.capOk
  rw [Exec.orUb_bind h1, Exec.orUb_bind (elem_layout hv.ok)]
  refine ⟨_, rfl, rfl, rfl, ?_, rfl, rfl⟩
  dsimp only
  rw [hv.read_all]
  rfl

omit [Inhabited β] in
theorem fromIter_ok {n : Nat} (ho : ElemOk c sz al n) (es : List (Emplacable σ (sizedTy sz al) β)) (s : σ) :
    Source.fromIter c sz al es n s = .ok (Source.iterated sz al es n ⟨n * sz, al⟩) s := by
  have h1 : c.isizeMax ≤ c.usizeMax := by
    unfold Cfg.isizeMax Cfg.usizeMax
    have : 2 ^ (c.bits - 1) ≤ 2 ^ c.bits := Nat.pow_le_pow_right (by omega) (by omega)
    omega
  have h2 := ho.size_le
  have e : sz * n = n * sz := Nat.mul_comm _ _
  have h3 : al ∈ ValidAlign.variants c ∧ sz * n + (al - 1) ≤ c.isizeMax := ⟨mem_variants.mpr ho.align_pow, by rw [e]; exact h2⟩
  unfold Source.fromIter Exec.onUnwind
  rw [Exec.bind_ok (Exec.assert_pos (by rw [e]; omega) s), Exec.bind_ok (Exec.assert_pos h3 s), e]
  rfl

end
end Verif
