import Verif.Proofs.Owned
import Verif.Props.Collect
import Verif.Props.Push
import Verif.Props.Insert
import Verif.Props.Sized

/-!
# C49–C51: owned containers made of emplacables, and the macros for unsized values
-/

namespace Verif
open Sample
variable {σ : Type} {T : UTy} {A : ATy} {β : Type} [Inhabited β] {c : Cfg} {sz al : Nat}

/-! ## C49: `Vec` -/

/-- C49, `Extend<Emplacable<T, F>> for Vec<T>`: it returns with exactly the values of the items appended; if it is stopped, the
vector holds what had been yielded until then, and the one value that there was no room for, if any, has been dropped. The elements
may be zero-sized. -/
theorem C49_extend {v : SVec sz al β} {ys : List (Val (sizedTy sz al) β)} (h : v.Holds c ys) (env : Env (Val (sizedTy sz al) β))
    (hint : Nat) {items : List (Env (Val (sizedTy sz al) β) × Emplacable σ (sizedTy sz al) β)} {s : σ}
    (hs : AllSound c (ofEmplacables items) s) {dropIter : Exec σ Unit} (hd : ∀ s, dropIter s ≠ .ub) :
    SVec.VecExtended c env hint items dropIter s v ys (SVec.vecExtend c env hint items dropIter (s, v)) :=
  SVec.vecExtend_meets h hs hd

/-- C49, `FromIterator<Emplacable<T, F>> for Vec<T>`. -/
theorem C49_fromIter (env envD : Env (Val (sizedTy sz al) β)) (hint : Nat)
    {items : List (Env (Val (sizedTy sz al) β) × Emplacable σ (sizedTy sz al) β)} {s : σ}
    (hs : AllSound c (ofEmplacables items) s) {dropIter : Exec σ Unit} (hd : ∀ s, dropIter s ≠ .ub) :
    SVec.VecCollected c env envD hint items dropIter s (SVec.vecFromIter c env envD hint items dropIter s) :=
  SVec.vecFromIter_meets hs hd

/-- C49, when it returns: the items yield the values `xs`; the reservation for `hint` elements succeeds; and so does growth by one
element for the items after the first `hint` ones. For the first `hint` items nothing can fail, since the room is reserved. -/
theorem C49_extend_returns {v : SVec sz al β} {ys xs : List (Val (sizedTy sz al) β)} (h : v.Holds c ys)
    {env : Env (Val (sizedTy sz al) β)} {hint : Nat} {items : List (Env (Val (sizedTy sz al) β) × Emplacable σ (sizedTy sz al) β)}
    {s s1 s' : σ} (hs : AllSound c (ofEmplacables items) s) {dropIter : Exec σ Unit} (hd : ∀ s, dropIter s ≠ .ub)
    (hy : Yielded (ofEmplacables items) s xs s1) (hd1 : dropIter s1 = .ok () s') (hn : ∀ err, ¬ SVec.Fails c sz env ys.length hint err)
    (hr : ∀ k env e, items[k]? = some (env, e) → hint ≤ k → ∀ err, ¬ SVec.Fails c sz env (ys.length + k) 1 err) :
    ∃ v', SVec.vecExtend c env hint items dropIter (s, v) = .ok () (s', v') ∧ v'.observe = some (ys ++ xs) ∧ v'.drops = v.drops := by
  have h1 := C49_extend h env hint hs hd
  unfold SVec.VecExtended at h1
  cases hm : SVec.vecExtend c env hint items dropIter (s, v) with
  | ub => rw [hm] at h1; exact h1.elim
  | abort =>
    rw [hm] at h1
    rcases h1 with (h1 | h1) | ⟨zs, ds, s2, h1 | h1, _⟩ | ⟨zs, s2, h1, h2⟩
    · exact absurd h1 (hn _)
    · exact (h1.elim hy hr).elim
    · exact absurd h1.1 (hn _)
    · exact (h1.elim hy hr).elim
    · obtain ⟨rfl, rfl⟩ := hy.unique h1
      rw [hd1] at h2; cases h2
  | panic st =>
    rw [hm] at h1
    rcases h1 with ⟨zs, ds, s2, h1 | h1, _⟩ | ⟨zs, s2, h1, h2, _⟩
    · exact absurd h1.1 (hn _)
    · exact (h1.elim hy hr).elim
    · obtain ⟨rfl, rfl⟩ := hy.unique h1
      rw [hd1] at h2; cases h2
  | ok u st =>
    rw [hm] at h1
    obtain ⟨zs, s2, h1, h2, h3, h4⟩ := h1
    obtain ⟨rfl, rfl⟩ := hy.unique h1
    rw [hd1] at h2
    cases h2
    exact ⟨st.2, rfl, SVec.Holds.observe_eq h3, h4⟩

/-! ## C50: `into_vec`, `String`, and `Rc` -/

/-- C50, `Emplacable::into_vec` and the conversions into `Vec`, `String`, `CString`, `OsString` and `PathBuf`: the vector has the
elements of the slice that the emplacable stands for; length and capacity are their number.
Partial: if the closure panics after it has delivered its value, the buffer is lost (`C38_counterexample`). -/
theorem C50_intoVec_partial (ha : al ∣ sz) {X : Type} {env : Env X} (hv : env.Valid) {e : Emplacable σ (sliceTy sz al) β} {s : σ}
    (hs : e.Sound c s) {t : Sink.BoxSt (sliceTy sz al) β} (ht : t.heap.block = none) :
    (Sink.intoVec env e (s, t)).Meets
      (fun r st => ∃ xs : List (Val (sizedTy sz al) β), AllSized xs ∧ e.Runs s (sliceOf xs) (.ok () st.1) ∧
        r.2 = (xs.length, xs.length) ∧ VecHolds c st.2.heap r.1 xs.length xs ∧ st.2.made = none ∧ st.2.heap.leaks = t.heap.leaks)
      (fun st => (e.Unwinds s st.1 ∧ st.2.heap.block = none ∧ st.2.heap.leaks = t.heap.leaks ∧ st.2.made = t.made) ∨
        ∃ x, e.Runs s x (.panic st.1))
      ((∃ n s1, e.Announces s (n : Nat) s1 ∧ 0 < n * sz ∧ env.alloc ⟨n * sz, al⟩ = none) ∨ e.Aborts s) := by
  unfold Sink.intoVec
  refine (C38_boxNewWith_partial hv hs ht).bind ?_
  rintro _ st ⟨x, p, h1, h2, h3⟩
  obtain ⟨xs, h4, h5, rfl⟩ := h2.wf.sliceOf
  rw [Exec.get_bind, Exec.orUb_bind h2.made]
  exact ⟨xs, h5, h1, rfl, h2.vecHolds ha h5, rfl, h3⟩

/-- C50: a `Vec` without spare capacity that is turned into an emplacable and back has the same elements in a new buffer; the old
one is released, and nothing is dropped. -/
theorem C50_roundtrip_partial {s : Source.St (Val (sizedTy sz al) β) β} {p cap : Nat} {xs : List (Val (sizedTy sz al) β)}
    (h : VecHolds c s.heap p cap xs) (hc : cap = xs.length ∨ sz = 0) (env : Env (Val (sizedTy sz al) β)) {X : Type} {env' : Env X}
    (hv : env'.Valid) {t : Sink.BoxSt (sliceTy sz al) β} (ht : t.heap.block = none) :
    (Sink.intoVec env' (Source.vector c sz al env p xs.length cap) (s, t)).Meets
      (fun r st => r.2 = (xs.length, xs.length) ∧ VecHolds c st.2.heap r.1 xs.length xs ∧ st.1.heap.block = none ∧
        st.1.heap.leaks = s.heap.leaks ∧ st.2.heap.leaks = t.heap.leaks ∧ st.1.drops = s.drops)
      (fun _ => False) (0 < xs.length * sz ∧ env'.alloc ⟨xs.length * sz, al⟩ = none) := by
  obtain ⟨s', h1, h2, h3, h4, h5⟩ := C41_vector_partial h env
  unfold Sink.intoVec
  refine (C38_delivers hv (h5.mp hc) (h.ok.sliceWF h.sized h.len) ht).bind ?_
  rintro _ st ⟨rfl, q, h7, h8⟩
  rw [Exec.get_bind, Exec.orUb_bind h7.made]
  exact ⟨rfl, h7.vecHolds h.ok.align_dvd h.sized, h3, h4, h8, h2⟩

/-- C50, `rc_new_with`, `arc_new_with`, the conversions into `Rc` and `Arc`, and their pinned variants: the result holds the value
that the emplacable stands for, and the box that was used on the way is released without dropping the value.
Partial: if the closure panics after it has delivered its value, the box is lost (`C38_counterexample`). -/
theorem C50_rcNewWith_partial (hu : IsAlign c c.usizeAlign) {env : Env (Val T β)} (hv : env.Valid) {e : Emplacable σ T β} {s : σ}
    (hs : e.Sound c s) {t : Sink.RcSt T β} (ht : t.box.heap.block = none) (hr : t.heap.block = none) :
    (Sink.rcNewWith c env e (s, t)).Meets
      (fun _ st => ∃ x p off, e.Runs s x (.ok () st.1) ∧ RcMade c st.2 x p off ∧ st.2.box.made = none ∧ st.2.box.heap.block = none ∧
        st.2.box.heap.leaks = t.box.heap.leaks ∧ st.2.heap.leaks = t.heap.leaks ∧ st.2.drops = t.drops)
      (fun st => st.2.heap = t.heap ∧ st.2.made = t.made ∧
        ((e.Unwinds s st.1 ∧ st.2.box.heap.block = none ∧ st.2.box.heap.leaks = t.box.heap.leaks ∧ st.2.drops = t.drops) ∨
        (∃ x, e.Runs s x (.panic st.1) ∧ st.2.drops = t.drops) ∨
        ∃ x, e.Runs s x (.ok () st.1) ∧ RcTooLarge c x ∧ st.2.box.heap.block = none ∧ st.2.box.heap.leaks = t.box.heap.leaks ∧
          st.2.drops = t.drops ++ [x]))
      ((∃ md s1, e.Announces s md s1 ∧ 0 < T.sizeOf md ∧ env.alloc ⟨T.sizeOf md, T.alignOf md⟩ = none) ∨ e.Aborts s ∨
        ∃ x s', e.Runs s x (.ok () s') ∧ ((RcTooLarge c x ∧ env.dropPanics x = true) ∨ RcRefused c env x.size x.align)) := by
  unfold Sink.rcNewWith
  refine Res.Meets.bind ((onBox_meets (C38_boxNewWith_partial hv hs ht)).mono (fun _ _ h => h) ?_ ?_) ?_
  · rintro st ⟨h1 | ⟨x, h1⟩, h2, h3, h4⟩
    · exact ⟨h2, h3, .inl ⟨h1.1, h1.2.1, h1.2.2.1, h4⟩⟩
    · exact ⟨h2, h3, .inr (.inl ⟨x, h1, h4⟩)⟩
  · rintro (h1 | h1)
    · exact .inl h1
    · exact .inr (.inl h1)
  · rintro _ ⟨s1, t1⟩ ⟨⟨x, q, h1, h2, h3⟩, h4, h5, h6⟩
    have h7 := rcFromBox_meets hu hv h2 (by show t1.heap.block = none; rw [h4]; exact hr)
    cases hm : Sink.rcFromBox c env t1 with
    | ub => rw [hm] at h7; exact h7.elim
    | abort => rw [hm] at h7; rw [liftR_abort hm]; exact .inr (.inr ⟨x, s1, h1, h7⟩)
    | panic t2 =>
      rw [hm] at h7; rw [liftR_panic hm]
      obtain ⟨k1, k2, k3, k4, k5, k6, k7⟩ := h7
      exact ⟨k5.trans h4, k6.trans h5, .inr (.inr ⟨x, h1, k1, k3, k4.trans h3, by rw [k7]; exact congrArg (· ++ [x]) h6⟩)⟩
    | ok u t2 =>
      rw [hm] at h7; rw [liftR_ok hm]
      obtain ⟨p, off, k1, k2, k3, k4, k5, k6⟩ := h7
      exact ⟨x, p, off, h1, k1, k2, k3, k4.trans h3, by rw [k5]; exact congrArg Heap.leaks h4, k6.trans h6⟩

/-- C50, `rc_new`, `arc_new`: the result holds the value. -/
theorem C50_rcNew (hu : IsAlign c c.usizeAlign) {env : Env (Val T β)} (hv : env.Valid) {x : Val T β} (hx : x.WF c)
    {t : Sink.RcSt T β} (ht : t.box.heap.block = none) (hr : t.heap.block = none) :
    (Sink.rcNew c env x t).Meets
      (fun _ t' => ∃ p off, RcMade c t' x p off ∧ t'.box.made = none ∧ t'.box.heap.block = none ∧
        t'.box.heap.leaks = t.box.heap.leaks ∧ t'.heap.leaks = t.heap.leaks ∧ t'.drops = t.drops)
      (fun t' => RcTooLarge c x ∧ t'.box.heap.block = none ∧ t'.box.heap.leaks = t.box.heap.leaks ∧ t'.heap = t.heap ∧
        t'.made = t.made ∧ t'.drops = t.drops ++ [x])
      ((0 < x.size ∧ env.alloc ⟨x.size, x.align⟩ = none) ∨ (RcTooLarge c x ∧ env.dropPanics x = true) ∨
        RcRefused c env x.size x.align) := by
  have h1 := C38_boxNew hv hx ht
  unfold Sink.rcNew
  rw [Exec.get_bind]
  cases hm : Sink.boxNew env x t.box with
  | ub => rw [hm] at h1; exact h1.elim
  | panic b => rw [hm] at h1; exact h1.elim
  | abort => rw [hm] at h1; exact .inl h1
  | ok u b =>
    rw [hm] at h1
    obtain ⟨q, h2, h3⟩ := h1
    refine (rcFromBox_meets (t := { t with box := b }) hu hv h2 hr).mono ?_ ?_ .inr
    · rintro _ t' ⟨p, off, k1, k2, k3, k4, k5⟩
      exact ⟨p, off, k1, k2, k3, k4.trans h3, k5⟩
    · rintro t' ⟨k1, _, k3, k4, k5⟩
      exact ⟨k1, k3, k4.trans h3, k5⟩

/-- C50, the end of the `Rc`: its value is dropped once, and its memory is released, even if the destructor panics. -/
theorem C50_rcDrop (hbits : 8 ≤ c.bits) (env : Env (Val T β)) {t : Sink.RcSt T β} {x : Val T β} {p off : Nat} (h : RcMade c t x p off) :
    (Sink.rcDrop c env t).Meets
      (fun _ t' => env.dropPanics x = false ∧ t'.drops = t.drops ++ [x] ∧ t'.heap.block = none ∧ t'.heap.leaks = t.heap.leaks)
      (fun t' => env.dropPanics x = true ∧ t'.drops = t.drops ++ [x] ∧ t'.heap.block = none ∧ t'.heap.leaks = t.heap.leaks) False := by
  obtain ⟨h', h1, h2, h3⟩ := rcDrop_eq hbits (env := env) h
  rw [h3]
  by_cases hp : env.dropPanics x = true
  · rw [if_pos hp]; exact ⟨hp, rfl, h1, h2⟩
  · rw [if_neg hp]; exact ⟨by simpa using hp, rfl, h1, h2⟩

/-! ## C51: the macros `unsize!` and `by_value_str!`, `push_unsize`, `insert_unsize` -/

omit [Inhabited β] in
/-- C51, `unsize!`: the result is the value with the metadata of the coercion, with the same bytes. -/
theorem C51_unsizeMacro {U : UTy} {md : U.Meta} (hsz : U.sizeOf md = sz) {x : Val (sizedTy sz al) β} (hx : x.WF c)
    (s : Source.Slot β) : ∃ s', Source.unsizeMacro c U md x s = .ok ⟨md, x.bytes⟩ s' := unsizeMacro_ok hsz hx s

omit [Inhabited β] in
/-- C51, `by_value_str!`: the result is the `str` with the bytes of the literal. -/
theorem C51_byValueStr (lit : List β) (s : Source.Slot β) :
    ∃ s', Source.byValueStr lit s = .ok ⟨(lit.length : Nat), lit⟩ s' :=
  ⟨⟨some lit⟩, slotTake_ok (U := sliceTy 1 1) (md := (lit.length : Nat)) (Nat.mul_one lit.length).symm⟩

omit [Inhabited β] in
theorem evalSlot_unsize {V : Type} {U : UTy} {md : U.Meta} (hsz : U.sizeOf md = sz) {x : Val (sizedTy sz al) β} (hx : x.WF c) (v : V) :
    Api.evalSlot (Source.unsizeMacro c U md x) v = .ok ⟨md, x.bytes⟩ v := by
  obtain ⟨s', h⟩ := C51_unsizeMacro hsz hx ⟨none⟩
  unfold Api.evalSlot
  rw [h]

omit [Inhabited β] in
theorem Val.WF.coerced {U : UTy} {md : U.Meta} (hsz : U.sizeOf md = sz) (hal : U.alignOf md = al) {x : Val (sizedTy sz al) β}
    (hx : x.WF c) : (⟨md, x.bytes⟩ : Val U β).WF c := by
  obtain ⟨h1, h2, h3, h4⟩ := hx
  refine ⟨?_, ?_, ?_, ?_⟩ <;> simp only [Val.size, Val.align, hsz, hal] at *
  · exact h1
  · exact h2
  · exact h3
  · exact h4

/-- C51, `push_unsize` for statically aligned elements: the coerced value is appended; if there is no room, it is destroyed,
once. -/
theorem C51_pushUnsize_aligned (hA : A.Lawful c) {v : AVec A β} {ys : List (Val A.ty β)} (h : v.Holds c ys)
    {env : Env (Val A.ty β)} (hv : env.Valid) {md : A.ty.Meta} (hsz : A.ty.sizeOf md = sz) (hal : A.ty.alignOf md = al)
    {x : Val (sizedTy sz al) β} (hx : x.WF c) :
    (Api.pushUnsize c (alignedM c A) env md x v).Meets
      (fun _ v' => v'.Holds c (ys ++ [⟨md, x.bytes⟩]) ∧ v'.drops = v.drops)
      (fun v' => v'.Holds c ys ∧ v'.drops = v.drops ++ [⟨md, x.bytes⟩] ∧ env.dropPanics ⟨md, x.bytes⟩ = false ∧
        (env.Refuses (ys.length + 1) (v.request (sz - v.spare ys)) ∨ v.TooLarge c ys 1 (sz - v.spare ys)))
      (env.Refuses (ys.length + 1) (v.request (sz - v.spare ys)) ∨ env.dropPanics ⟨md, x.bytes⟩ = true ∧
        (env.Refuses (ys.length + 1) (v.request (sz - v.spare ys)) ∨ v.TooLarge c ys 1 (sz - v.spare ys))) := by
  unfold Api.pushUnsize
  rw [Exec.bind_ok (evalSlot_unsize hsz hx v)]
  have := giving_outcome (M := alignedM c A) (env := env) (x := ⟨md, x.bytes⟩) (H := fun v' => v'.Holds c ys) (fun h => ⟨⟨h.wf, h.keeps, h.infos, h.recs, h.cap, h.capMax, h.mem, h.block, h.leaks⟩, rfl⟩)
    (C01_push_aligned hA h hv (hx.coerced hsz hal))
  rwa [show (⟨md, x.bytes⟩ : Val A.ty β).size = sz from hsz] at this

/-- C51, `push_unsize` for dynamically aligned elements. Partial: as in `C01_push_unaligned_partial`. -/
theorem C51_pushUnsize_unaligned_partial {G : Prop} {v : UVec T β} {ys : List (Val T β)} (h : v.Represents G c ys)
    {env : Env (Val T β)} (hv : env.Valid) (he : G → env.Exact) {md : T.Meta} (hsz : T.sizeOf md = sz) (hal : T.alignOf md = al)
    {x : Val (sizedTy sz al) β} (hx : x.WF c) (hz : v.ZstOk sz al)
    (hr : ¬ G → al ≤ v.align → v.RoomOk ys sz) :
    (Api.pushUnsize c (unalignedM c T) env md x v).Meets
      (fun _ v' => v'.Represents G c (ys ++ [⟨md, x.bytes⟩]) ∧ v'.drops = v.drops)
      (fun v' => v'.Represents G c ys ∧ v'.drops = v.drops ++ [⟨md, x.bytes⟩] ∧ env.dropPanics ⟨md, x.bytes⟩ = false ∧
        (env.Refuses (ys.length + 1) (v.request ys (sz - v.spare ys) al) ∨ v.TooLarge c ys 1 (sz - v.spare ys) al))
      (env.Refuses (ys.length + 1) (v.request ys (sz - v.spare ys) al) ∨ env.dropPanics ⟨md, x.bytes⟩ = true ∧
        (env.Refuses (ys.length + 1) (v.request ys (sz - v.spare ys) al) ∨ v.TooLarge c ys 1 (sz - v.spare ys) al)) := by
  subst hsz hal
  unfold Api.pushUnsize
  rw [Exec.bind_ok (evalSlot_unsize rfl hx v)]
  exact giving_outcome (M := unalignedM c T) (H := fun v' => v'.Represents G c ys) (fun h => ⟨⟨h.wf, h.al, h.elemAl, h.infos, h.recs, h.cap, h.capDvd, h.room, h.mem, h.block, h.leaks⟩, rfl⟩)
    (C01_push_unaligned_stored_partial h hv he (hx.coerced rfl rfl) hz (h.roomOk hr))

omit [Inhabited β] in
/-- C51, `unsize_vec!`: it does what `unsized_vec!` does with the coerced values. -/
theorem C51_unsizeVec {V : Type} {U : UTy} (M : Machine V U β) (envD : Env (Val U β)) {args : List (Env (Val U β) × Coercible σ U β)}
    (ha : ∀ p ∈ args, p.2.Sound c) (s : σ) : unsizeVec c M envD args s = unsizedVec c M envD (ofCoercibles args) s := by
  have key : ∀ (args : List (Env (Val U β) × Coercible σ U β)), (∀ p ∈ args, p.2.Sound c) → ∀ st,
      pushCoercibles c M args st = pushItems c M (ofCoercibles args) st := by
    intro args
    induction args with
    | nil => intro _ st; rfl
    | cons p rest ih =>
      intro ha ⟨s, v⟩
      obtain ⟨env, a⟩ := p
      have hs : a.Sound c := ha (env, a) (by simp)
      have hrest := ih fun q hq => ha q (by simp [hq])
      show (liftL a.eval >>= fun x => liftR (Api.pushUnsize c M env a.md x) >>= fun _ => pushCoercibles c M rest) (s, v) =
        ((liftL (a.eval >>= fun x => pure (⟨a.md, x.bytes⟩ : Val U β)) >>= fun y => liftR (M.giving env y (Api.push c M.P env y))) >>= fun _ =>
          pushItems c M (ofCoercibles rest)) (s, v)
      cases he : a.eval s with
      | ok x s1 =>
        have h1 : (a.eval >>= fun x => pure (⟨a.md, x.bytes⟩ : Val U β)) s = .ok ⟨a.md, x.bytes⟩ s1 := Exec.bind_ok he
        have h2 : ∀ v, Api.pushUnsize c M env a.md x v = M.giving env ⟨a.md, x.bytes⟩ (Api.push c M.P env ⟨a.md, x.bytes⟩) v := fun v =>
          Exec.bind_ok (evalSlot_unsize hs.size (hs.wf he) v)
        have h3 : liftR (σ := σ) (Api.pushUnsize c M env a.md x) = liftR (M.giving env ⟨a.md, x.bytes⟩ (Api.push c M.P env ⟨a.md, x.bytes⟩)) := by
          rw [show Api.pushUnsize c M env a.md x = M.giving env ⟨a.md, x.bytes⟩ (Api.push c M.P env ⟨a.md, x.bytes⟩) from funext h2]
        rw [Exec.bind_ok (liftL_ok he), h3, Exec.bind_assoc_apply, Exec.bind_ok (liftL_ok h1),
          show pushCoercibles c M rest = pushItems c M (ofCoercibles rest) from funext hrest]
      | panic s1 =>
        have h1 : (a.eval >>= fun x => pure (⟨a.md, x.bytes⟩ : Val U β)) s = .panic s1 := Exec.bind_panic he
        rw [Exec.bind_panic (liftL_panic he), Exec.bind_assoc_apply, Exec.bind_panic (liftL_panic h1)]
      | abort =>
        have h1 : (a.eval >>= fun x => pure (⟨a.md, x.bytes⟩ : Val U β)) s = .abort := Exec.bind_abort he
        rw [Exec.bind_abort (liftL_abort he), Exec.bind_assoc_apply, Exec.bind_abort (liftL_abort h1)]
      | ub => exact absurd he (hs.noUb s)
  show Exec.onUnwind _ _ _ = Exec.onUnwind _ _ _
  unfold Exec.onUnwind
  rw [key args ha]

omit [Inhabited β] in
theorem ofCoercibles_sound {U : UTy} {args : List (Env (Val U β) × Coercible σ U β)} (ha : ∀ p ∈ args, p.2.Sound c) (s : σ) :
    AllSound c (ofCoercibles args) s := by
  induction args generalizing s with
  | nil => trivial
  | cons p rest ih =>
    obtain ⟨env, a⟩ := p
    have hs : a.Sound c := ha (env, a) (by simp)
    refine ⟨⟨?_, ?_⟩, fun x s' _ => ih (fun q hq => ha q (by simp [hq])) s'⟩
    · show (a.eval >>= fun x => pure (⟨a.md, x.bytes⟩ : Val U β)) s ≠ .ub
      cases he : a.eval s with
      | ok x s1 => rw [Exec.bind_ok he]; exact fun h => by cases h
      | panic s1 => rw [Exec.bind_panic he]; exact fun h => by cases h
      | abort => rw [Exec.bind_abort he]; exact fun h => by cases h
      | ub => exact absurd he (hs.noUb s)
    · intro y s' hy
      have hy' : (a.eval >>= fun x => pure (⟨a.md, x.bytes⟩ : Val U β)) s = .ok y s' := hy
      cases he : a.eval s with
      | ok x s1 =>
        rw [Exec.bind_ok he] at hy'
        cases hy'
        exact (hs.wf he).coerced hs.size hs.align
      | panic s1 => rw [Exec.bind_panic he] at hy'; cases hy'
      | abort => rw [Exec.bind_abort he] at hy'; cases hy'
      | ub => exact absurd he (hs.noUb s)

/-- C51, `unsize_vec!` for statically aligned elements: the vector holds the coerced values of the arguments in order; if an argument
panics or there is no room, everything is destroyed once. -/
theorem C51_unsizeVec_aligned (hA : A.Lawful c) (envD : Env (Val A.ty β)) {args : List (Env (Val A.ty β) × Coercible σ A.ty β)} {s : σ}
    (hi : ∀ p ∈ args, p.1.Valid) (ha : ∀ p ∈ args, p.2.Sound c) :
    (AVec.reading c).Lists c (alignedM c A) envD (ofCoercibles args) s AVec.new (unsizeVec c (alignedM c A) envD args s) := by
  rw [C51_unsizeVec (alignedM c A) envD ha]
  refine C32_unsizedVec_aligned hA envD (fun q hq => ?_) (ofCoercibles_sound ha s)
  obtain ⟨p, hp, rfl⟩ := List.mem_map.1 hq
  exact hi p hp

/-- C51, `unsize_vec!` for dynamically aligned elements. Partial: not covered are zero-sized arguments whose alignment exceeds that of
`usize`. -/
theorem C51_unsizeVec_unaligned_partial (hu : IsAlign c c.usizeAlign) (envD : Env (Val T β)) {args : List (Env (Val T β) × Coercible σ T β)}
    {s : σ} (hi : ∀ p ∈ args, p.1.Valid ∧ p.1.Exact) (ha : ∀ p ∈ args, p.2.Sound c)
    (hz : ∀ p ∈ args, p.2.sz = 0 → p.2.al ≤ c.usizeAlign) :
    (UVec.reading True c).Lists c (unalignedM c T) envD (ofCoercibles args) s (UVec.newAlignPtr c) (unsizeVec c (unalignedM c T) envD args s) := by
  rw [C51_unsizeVec (unalignedM c T) envD ha]
  refine C32_unsizedVec_unaligned_partial (G := True) hu envD (fun q hq => ?_) (fun _ _ _ _ => trivial) (ofCoercibles_sound ha s) ?_
  · obtain ⟨p, hp, rfl⟩ := List.mem_map.1 hq
    exact ⟨(hi p hp).1, fun _ => (hi p hp).2⟩
  · clear hi
    induction args generalizing s with
    | nil => trivial
    | cons p rest ih =>
      obtain ⟨env, a⟩ := p
      have hs : a.Sound c := ha (env, a) (by simp)
      refine ⟨?_, fun x s' _ => ih (fun q hq => ha q (by simp [hq])) (fun q hq => hz q (by simp [hq]))⟩
      rintro n al s' ⟨y, hy, rfl, rfl⟩ h0
      have hy' : (a.eval >>= fun x => pure (⟨a.md, x.bytes⟩ : Val T β)) s = .ok y s' := hy
      cases he : a.eval s with
      | ok x s1 =>
        rw [Exec.bind_ok he] at hy'
        cases hy'
        show T.alignOf a.md ≤ _
        rw [hs.align]
        exact hz (env, a) (by simp) (by rw [← hs.size]; exact h0)
      | panic s1 => rw [Exec.bind_panic he] at hy'; cases hy'
      | abort => rw [Exec.bind_abort he] at hy'; cases hy'
      | ub => exact absurd he (hs.noUb s)

/-- C51, `insert_unsize` for statically aligned elements. Partial: as in `C03_insert_aligned_partial`. -/
theorem C51_insertUnsize_aligned_partial (hA : A.Lawful c) {v : AVec A β} {ys : List (Val A.ty β)} (h : v.Holds c ys)
    {env : Env (Val A.ty β)} (hv : env.Valid) {md : A.ty.Meta} (hsz : A.ty.sizeOf md = sz) (hal : A.ty.alignOf md = al)
    {x : Val (sizedTy sz al) β} (hx : x.WF c) {i : Nat} (hi : i ≤ ys.length) (hg : totalWidth id (ys.take i) = i) :
    (Api.insertUnsize c (alignedM c A) env i md x v).Meets
      (fun _ v' => v'.Holds c (ys.take i ++ ⟨md, x.bytes⟩ :: ys.drop i) ∧ v'.drops = v.drops)
      (fun v' => v'.Holds c ys ∧ v'.drops = v.drops ++ [⟨md, x.bytes⟩] ∧ env.dropPanics ⟨md, x.bytes⟩ = false ∧
        (env.Refuses (ys.length + 1) (v.request (sz - v.spare ys)) ∨ v.TooLarge c ys 1 (sz - v.spare ys)))
      (env.Refuses (ys.length + 1) (v.request (sz - v.spare ys)) ∨ env.dropPanics ⟨md, x.bytes⟩ = true ∧
        (env.Refuses (ys.length + 1) (v.request (sz - v.spare ys)) ∨ v.TooLarge c ys 1 (sz - v.spare ys))) := by
  unfold Api.insertUnsize
  rw [Exec.bind_ok (evalSlot_unsize hsz hx v)]
  have := giving_outcome (M := alignedM c A) (env := env) (x := ⟨md, x.bytes⟩) (H := fun v' => v'.Holds c ys) (fun h => ⟨⟨h.wf, h.keeps, h.infos, h.recs, h.cap, h.capMax, h.mem, h.block, h.leaks⟩, rfl⟩)
    (C03_insert_aligned_partial hA h hv (hx.coerced hsz hal) hi hg)
  rwa [show (⟨md, x.bytes⟩ : Val A.ty β).size = sz from hsz] at this

/-- C51, `insert_unsize` for dynamically aligned elements. Partial: as in `C03_insert_unaligned_partial`. -/
theorem C51_insertUnsize_unaligned_partial {G : Prop} {v : UVec T β} {ys : List (Val T β)} (h : v.Represents G c ys)
    {env : Env (Val T β)} (hv : env.Valid) (he : G → env.Exact) {md : T.Meta} (hsz : T.sizeOf md = sz) (hal : T.alignOf md = al)
    {x : Val (sizedTy sz al) β} (hx : x.WF c) (hz : v.ZstOk sz al)
    (hr : ¬ G → al ≤ v.align → v.RoomOk ys sz) {i : Nat} (hi : i ≤ ys.length)
    (hg : UVec.InsertOk ys i (max v.align al)) (hb : totalWidth (padTo (max v.align al)) (ys.take i) = i) :
    (Api.insertUnsize c (unalignedM c T) env i md x v).Meets
      (fun _ v' => v'.Represents G c (ys.take i ++ ⟨md, x.bytes⟩ :: ys.drop i) ∧ v'.drops = v.drops)
      (fun v' => v'.Represents G c ys ∧ v'.drops = v.drops ++ [⟨md, x.bytes⟩] ∧ env.dropPanics ⟨md, x.bytes⟩ = false ∧
        (env.Refuses (ys.length + 1) (v.request ys (sz - v.spare ys) al) ∨ v.TooLarge c ys 1 (sz - v.spare ys) al))
      (env.Refuses (ys.length + 1) (v.request ys (sz - v.spare ys) al) ∨ env.dropPanics ⟨md, x.bytes⟩ = true ∧
        (env.Refuses (ys.length + 1) (v.request ys (sz - v.spare ys) al) ∨ v.TooLarge c ys 1 (sz - v.spare ys) al)) := by
  subst hsz hal
  unfold Api.insertUnsize
  rw [Exec.bind_ok (evalSlot_unsize rfl hx v)]
  exact giving_outcome (M := unalignedM c T) (H := fun v' => v'.Represents G c ys) (fun h => ⟨⟨h.wf, h.al, h.elemAl, h.infos, h.recs, h.cap, h.capDvd, h.room, h.mem, h.block, h.leaks⟩, rfl⟩)
    (C03_insert_unaligned_stored_partial h hv he (hx.coerced rfl rfl) hz (h.roomOk hr) hi hg hb)

/-- C51, `insert_unsize` at an index beyond the end panics, and only the coerced value is destroyed. -/
theorem C51_insertUnsize_out_aligned (hA : A.Fits c) {v : AVec A β} {ys : List (Val A.ty β)} (h : v.Holds c ys)
    (env : Env (Val A.ty β)) {md : A.ty.Meta} (hsz : A.ty.sizeOf md = sz) {x : Val (sizedTy sz al) β} (hx : x.WF c) {i : Nat}
    (hi : ys.length < i) : Api.insertUnsize c (alignedM c A) env i md x v =
      if env.dropPanics ⟨md, x.bytes⟩ then .abort else .panic { v with drops := v.drops ++ [⟨md, x.bytes⟩] } := by
  unfold Api.insertUnsize
  rw [Exec.bind_ok (evalSlot_unsize hsz hx v)]
  exact giving_panic (C03_insert_out_aligned hA h env _ hi)

theorem C51_insertUnsize_out_unaligned {G : Prop} {v : UVec T β} {ys : List (Val T β)} (h : v.Represents G c ys)
    (env : Env (Val T β)) {md : T.Meta} (hsz : T.sizeOf md = sz) {x : Val (sizedTy sz al) β} (hx : x.WF c) {i : Nat}
    (hi : ys.length < i) : Api.insertUnsize c (unalignedM c T) env i md x v =
      if env.dropPanics ⟨md, x.bytes⟩ then .abort else .panic { v with drops := v.drops ++ [⟨md, x.bytes⟩] } := by
  unfold Api.insertUnsize
  rw [Exec.bind_ok (evalSlot_unsize hsz hx v)]
  exact giving_panic (C03_insert_out_unaligned h env _ hi)

/-! ## Examples and counterexamples -/

namespace Sample

/-- Three items of a 2-byte type; the state is the list of values that have been dropped. -/
def pairItems : List (Env (Val Pair Nat) × Emplacable (List (Val Pair Nat)) Pair Nat) :=
  [pair 7 8, pair 9 10, pair 11 12].map fun x => (env, given env x)

theorem pairItems_sound : AllSound c64 (ofEmplacables pairItems) [] :=
  given_allSound [(env, pair 7 8), (env, pair 9 10), (env, pair 11 12)] [] (by
    intro p hp
    simp only [List.mem_cons, List.not_mem_nil, or_false] at hp
    rcases hp with rfl | rfl | rfl <;> exact pair_wf _ _ _ (.inl rfl))

/-- Nothing is allocated. -/
def noRc {T : UTy} : Sink.RcSt T Nat := ⟨⟨Heap.empty, none⟩, Heap.empty, none, []⟩

/-- What can be seen of the `Rc` when the call has returned: the pointer to the counters, the offset of the value, its memory, and
what is left of the box. -/
def rcSeen {α : Type} {T : UTy} (see : T.Meta → α) : Res (List (Val T Nat) × Sink.RcSt T Nat) Unit →
    Option (Option (Nat × Nat × α) × Option Block × Option Block)
  | .ok _ st => some (st.2.made.map fun r => (r.1, r.2.1, see r.2.2), st.2.heap.block, st.2.box.heap.block)
  | _ => none

/-- Growth always fails. -/
def envStuck {X : Type} : Env X := { (env : Env X) with infoGrow := fun _ => .error .capacityOverflow }

end Sample

/-- The hypotheses of C49 can be met: `vecP` has two free slots, so that the first two items need no memory. -/
example : ∃ v', SVec.vecExtend c64 env 2 pairItems noDrop ([], vecP) = .ok () ([], v') ∧
    v'.observe = some (listP ++ [pair 7 8, pair 9 10, pair 11 12]) ∧ v'.drops = [] :=
  C49_extend_returns (xs := [pair 7 8, pair 9 10, pair 11 12]) (vecP_holds _ (.inl rfl)) pairItems_sound (fun _ h => by cases h)
    (.cons (given_yields _ _ _) (.cons (given_yields _ _ _) (.cons (given_yields _ _ _) (.nil _)))) rfl
    (by
      rintro err (h | h)
      · exact absurd h.2 (by decide)
      · cases h)
    (by
      intro k env' e hk _ err
      match k with
      | 0 | 1 | 2 =>
        cases hk
        rintro (h | h)
        · exact absurd h.2 (by decide)
        · cases h
      | k + 3 => simp [pairItems] at hk)

/-- A test of the model: the third item finds no room, and its value is dropped; `from_iter` then drops the others as well. -/
example : unwound (fun v => (v.observe.map (·.map Val.bytes), v.drops.map Val.bytes)) (SVec.vecExtend c64 env 0 (pairItems.map fun p => (envStuck, p.2)) noDrop ([], vecP)) =
      some (some [[1, 2], [3, 4], [5, 6], [7, 8], [9, 10]], [[11, 12]]) ∧
    unwound (fun v => v.drops.map Val.bytes) (SVec.vecFromIter c64 env env 2 (pairItems.map fun p => (envStuck, p.2)) noDrop []) =
      some [[11, 12], [7, 8], [9, 10]] ∧
    returned (fun v => v.observe.map (·.map Val.bytes)) (SVec.vecFromIter c64 env env 1 pairItems noDrop []) =
      some (some [[7, 8], [9, 10], [11, 12]]) := by
  refine ⟨?_, ?_, ?_⟩ <;> decide +kernel

/-- A test of the model: zero-sized elements can be collected. -/
example : returned SVec.len (SVec.vecFromIter c64 env env 2
    (List.replicate 2 (env, given env (⟨(), []⟩ : Val (sizedTy 0 1) Nat))) noDrop []) = some 2 := by decide +kernel

/-- `C50_intoVec_partial` and `C50_roundtrip_partial` can be applied. -/
example := C50_intoVec_partial (sz := 1) (al := 1) (t := noBox) (Nat.one_dvd _) (env_valid (X := Unit))
  (given_sound (bytes_wf [1, 2, 3] (by decide) c64 (.inl rfl)) env []) rfl
example : ∃ st, Sink.intoVec (env : Env Unit) (Source.text [104, 105]) ((), noBox) = .ok (4096, 2, 2) st ∧
    st.2.heap.block = some ⟨4096, 2, 2, 1⟩ ∧ st.2.heap.bytesAt 0 2 = [104, 105] := ⟨_, rfl, rfl, rfl⟩
example := C50_roundtrip_partial (t := noBox) fullSt_holds (.inl rfl) env (env_valid (X := Unit)) rfl
example : ∃ st, Sink.intoVec (env : Env Unit) (Source.vector c64 1 1 env 4096 2 2) (fullSt, noBox) = .ok (4096, 2, 2) st ∧
    st.1.heap.block = none ∧ st.2.heap.bytesAt 0 2 = [1, 2] := ⟨_, rfl, rfl, rfl⟩

/-- `C50_rcNewWith_partial`, `C50_rcNew` and `C50_rcDrop` can be applied; a value of alignment 32 lies 32 bytes behind the start. -/
theorem c64_usizeAlign : IsAlign c64 c64.usizeAlign := ⟨3, by decide, rfl⟩
example := C50_rcNewWith_partial (t := noRc) c64_usizeAlign env_valid
  (given_sound (dyn_wf 5 (List.replicate 32 7) (by decide) (by decide) (by decide) c64 (.inl rfl)) env []) rfl rfl
example : rcSeen id (Sink.rcNewWith c64 env (given env (dyn 32 (List.replicate 32 7))) ([], noRc)) =
    some (some (131072, 32, (32, 32)), some ⟨131072, 64, 64, 32⟩, none) := by decide +kernel
example : rcSeen (fun n => (n : Nat)) (Sink.rcNewWith c64 env (given env (bytes [1, 2, 3])) ([], noRc)) =
    some (some (32768, 16, 3), some ⟨32768, 24, 24, 8⟩, none) := by decide +kernel
example : ∃ t, Sink.rcNew c64 env (bytes [1, 2, 3]) noRc = .ok () t ∧ t.heap.bytesAt 16 3 = [1, 2, 3] ∧
    ∃ t', Sink.rcDrop c64 env t = .ok () t' ∧ t'.drops = [bytes [1, 2, 3]] ∧ t'.heap.block = none :=
  ⟨_, rfl, rfl, _, rfl, rfl, rfl⟩
example : ∃ t p off, Sink.rcNew c64 env (bytes [1, 2, 3]) noRc = .ok () t ∧ RcMade c64 t (bytes [1, 2, 3]) p off := by
  have h := C50_rcNew (t := noRc) c64_usizeAlign env_valid (bytes_wf [1, 2, 3] (by decide) c64 (.inl rfl)) rfl rfl
  obtain ⟨p, off, h, _⟩ := h
  exact ⟨_, p, off, rfl, h⟩

/-- C50 is false of the code if the closure panics after it has delivered its value: the buffer is lost. -/
theorem C50_counterexample : lateFail.Sound c64 () ∧
    (∃ st, Sink.intoVec (env : Env Unit) lateFail ((), noBox) = .panic st ∧ st.2.heap.block = some ⟨4096, 2, 2, 1⟩) ∧
    ∃ st, Sink.rcNewWith c64 env lateFail ((), noRc) = .panic st ∧ st.2.box.heap.block = some ⟨4096, 2, 2, 1⟩ ∧ st.2.drops = [] :=
  ⟨lateFail_sound, ⟨_, rfl, rfl⟩, _, rfl, rfl, rfl⟩

/-- `C51_…` can be applied: a `[u8; 2]` is appended to a vector of `[u8]`, and inserted at index 1. -/
theorem twoBytes_wf : (⟨(), [7, 8]⟩ : Val (sizedTy 2 1) Nat).WF c64 := ⟨rfl, ⟨0, by decide, rfl⟩, Nat.one_dvd _, by decide⟩
example := C51_pushUnsize_aligned (A := Bytes) (md := (2 : Nat)) (bytes_lawful c64 (.inl rfl)) (vecA_holds c64 (.inl rfl)) env_valid rfl rfl twoBytes_wf
example := C51_pushUnsize_unaligned_partial (T := Dyn) (md := (2, 1)) (vecU_holds c64 (.inl rfl)) env_valid (fun _ => env_exact) rfl rfl twoBytes_wf
  (fun h => absurd h (by decide)) (fun h => absurd trivial h)
example := C51_insertUnsize_aligned_partial (A := Bytes) (md := (2 : Nat)) (i := 1) (bytes_lawful c64 (.inl rfl)) (vecA_holds c64 (.inl rfl)) env_valid rfl rfl
  twoBytes_wf (by decide) rfl
example := C51_insertUnsize_unaligned_partial (T := Dyn) (md := (2, 1)) (i := 0) (vecU_holds c64 (.inl rfl)) env_valid (fun _ => env_exact) rfl rfl
  twoBytes_wf (fun h => absurd h (by decide)) (fun h => absurd trivial h) (by decide) (.inl (by decide)) rfl
example : ∃ v', Api.pushUnsize c64 (alignedM c64 Bytes) env (2 : Nat) (⟨(), [7, 8]⟩ : Val (sizedTy 2 1) Nat) vecA = .ok () v' ∧
    v'.observe c64 = some (listA ++ [bytes [7, 8]]) := ⟨_, rfl, rfl⟩
example : ∃ s, Source.byValueStr [104, 105] ⟨none⟩ = .ok (bytes [104, 105]) s := ⟨_, rfl⟩

/-- The arguments of `unsize_vec![1u8, 2u16]`. -/
def Sample.dynArgs : List (Env (Val Dyn Nat) × Coercible Unit Dyn Nat) :=
  [(env, ⟨1, 1, (1, 1), pure ⟨(), [1]⟩⟩), (env, ⟨2, 2, (2, 2), pure ⟨(), [2, 3]⟩⟩)]

theorem Sample.dynArgs_sound : ∀ p ∈ dynArgs, p.2.Sound c64 := by
  intro p hp
  simp only [dynArgs, List.mem_cons, List.not_mem_nil, or_false] at hp
  rcases hp with rfl | rfl
  · exact ⟨rfl, rfl, fun s h => (by cases h), fun h => by cases h; exact ⟨rfl, ⟨0, by decide, rfl⟩, Nat.one_dvd _, by decide⟩⟩
  · exact ⟨rfl, rfl, fun s h => (by cases h), fun h => by cases h; exact ⟨rfl, ⟨1, by decide, rfl⟩, by decide, by decide⟩⟩

theorem Sample.dynArgs_env : ∀ p ∈ dynArgs, p.1.Valid ∧ p.1.Exact := by
  intro p hp
  simp only [dynArgs, List.mem_cons, List.not_mem_nil, or_false] at hp
  rcases hp with rfl | rfl
  · exact ⟨env_valid, env_exact⟩
  · exact ⟨env_valid, env_exact⟩

theorem Sample.dynArgs_zst : ∀ p ∈ dynArgs, p.2.sz = 0 → p.2.al ≤ c64.usizeAlign := by
  intro p hp
  simp only [dynArgs, List.mem_cons, List.not_mem_nil, or_false] at hp
  rcases hp with rfl | rfl <;> intro h <;> cases h

/-- The hypotheses of `C51_unsizeVec_unaligned_partial` can be met, as follows. -/
example : IsAlign c64 c64.usizeAlign ∧ (∀ p ∈ dynArgs, p.1.Valid ∧ p.1.Exact) ∧ (∀ p ∈ dynArgs, p.2.Sound c64) ∧
    ∀ p ∈ dynArgs, p.2.sz = 0 → p.2.al ≤ c64.usizeAlign := ⟨c64_usizeAlign, dynArgs_env, dynArgs_sound, dynArgs_zst⟩
/-- `unsize_vec![1u8, 2u16]`, and the same with a third argument that panics. -/
example : returned (fun v => (v.observe c64).map (·.map Val.bytes)) (unsizeVec c64 (unalignedM c64 Dyn) env dynArgs ()) =
      some (some [[1], [2, 3]]) ∧
    unwound (fun v => v.drops.map Val.bytes)
      (unsizeVec c64 (unalignedM c64 Dyn) env (dynArgs ++ [(env, ⟨1, 1, (1, 1), Exec.panic⟩)]) ()) = some [[1], [2, 3]] := by
  decide +kernel


/-- C51 is false of the code where C01 and C03 are: `insert_unsize` of `[7, 8]` at index 2 of `[[1], [2, 3], [4, 5, 6]]`. -/
theorem C51_counterexample : vecA.Holds c64 listA ∧
    ∃ v', Api.insertUnsize c64 (alignedM c64 Bytes) env 2 (2 : Nat) (⟨(), [7, 8]⟩ : Val (sizedTy 2 1) Nat) vecA = .ok () v' ∧
      v'.observe c64 = some [bytes [1], bytes [2, 7], bytes [8, 3], bytes [4, 5, 0]] :=
  ⟨vecA_holds _ (.inl rfl), _, rfl, rfl⟩

end Verif
