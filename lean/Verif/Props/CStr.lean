import Verif.Props.Owned
import Verif.Props.Remove
import Verif.Props.Stored
import Verif.Props.Sized

/-!
# C60: `ALIGN` is the alignment of the values, and a removed element is announced with its own layout

The trait `Aligned` (marker.rs:11–24) promises that `ALIGN` is the alignment of all values of the type. For slices and `str` it is. For
`CStr` it is the alignment of a reference. A vector of `CStr` still stores, reads, moves and drops its elements correctly, since `ALIGN` is a
multiple of the alignment; but every emplacable made from it announces a wrong layout, and a box made from such an emplacable is freed
with another layout than the one it was allocated with.
-/

namespace Verif
open Sample

section
variable {T : UTy} {A : ATy} {β σ τ : Type} [Inhabited β] {c : Cfg} {sz al : Nat}

/-! ## The contract of the trait -/

/-- C60 for slices. -/
theorem C60_slice : (ATy.slice sz al).Exact := fun _ => rfl

/-- C60 for `str`. -/
theorem C60_str : ATy.str.Exact := fun _ => rfl

theorem ATy.str_lawful (hc : 0 < c.bits) : ATy.str.Lawful c := C60_str.lawful (.one hc) fun _ => rfl

/-- C60 is false of the code for `CStr`: on every target on which a reference has an alignment other than 1, no `CStr` whatsoever has
the alignment `ALIGN`. -/
theorem C60_cstr_contract (hu : c.usizeAlign ≠ 1) :
    (∀ md, (ATy.cstr c).ty.alignOf md ≠ (ATy.cstr c).ALIGN) ∧ ¬ (ATy.cstrAny c).Exact :=
  ⟨fun _ h => hu h.symm, fun h => hu (h (0 : Nat)).symm⟩

/-- Nevertheless vectors of `CStr` meet what the theorems about vectors of statically aligned elements assume: that `ALIGN` is a multiple
of the alignment. -/
theorem C60_cstr_lawful (hu : IsAlign c c.usizeAlign) : (ATy.cstr c).Lawful c where
  al := hu
  same _ _ := rfl
  dvd _ := Nat.one_dvd _
  room md _ _ := md.2.2
  keeps _ := rfl

/-! ## The layout that is announced -/

/-- C60 for `pop_into`, statically aligned elements: the last element is announced with its metadata and its size; it is announced with its
alignment exactly if that is `ALIGN`. -/
theorem C60_popInto_aligned (hA : A.Fits c) {v : AVec A β} {ys : List (Val A.ty β)} {x : Val A.ty β} (h : v.Holds c (ys ++ [x]))
    (env : Env (Val A.ty β)) :
    ∃ e st v1, Api.popInto (alignedP c A) env v = some e ∧ e v = .ok st v1 ∧ st.md = x.md ∧ st.layout = ⟨x.size, A.ALIGN⟩ ∧
      (st.layout = ⟨x.size, x.align⟩ ↔ x.align = A.ALIGN) := by
  obtain ⟨st, v1, h1, h2⟩ := (AVec.implF hA).pop h env
  refine ⟨_, st, v1, ?_, h1, h2.md, h2.layout, ?_⟩
  · unfold Api.popInto
    rw [if_pos (by rw [(AVec.implF hA).len_eq h]; simp)]
  · rw [h2.layout]
    show Layout.mk _ A.ALIGN = _ ↔ _
    constructor
    · intro h3; exact (congrArg Layout.align h3).symm
    · intro h3; rw [h3]

/-- C60 for `remove_into`, statically aligned elements. -/
theorem C60_removeInto_aligned (hA : A.Fits c) {v : AVec A β} {xs : List (Val A.ty β)} (h : v.Holds c xs) (env : Env (Val A.ty β))
    {i : Nat} (hi : i < xs.length) :
    ∃ st v1, Api.removeInto (alignedP c A) env i v = .ok st v1 ∧ st.md = xs[i].md ∧ st.layout = ⟨xs[i].size, A.ALIGN⟩ ∧
      (st.layout = ⟨xs[i].size, xs[i].align⟩ ↔ xs[i].align = A.ALIGN) := by
  obtain ⟨st, v1, h1, h2⟩ := (AVec.implF hA).remove h env i hi trivial
  refine ⟨st, v1, ?_, h2.md, h2.layout, ?_⟩
  · unfold Api.removeInto
    rw [Exec.get_bind, Exec.assert_bind (by rw [(AVec.implF hA).len_eq h]; exact hi)]
    exact h1
  · rw [h2.layout]
    show Layout.mk _ A.ALIGN = _ ↔ _
    constructor
    · intro h3; exact (congrArg Layout.align h3).symm
    · intro h3; rw [h3]

/-- C60 for `pop_into`, dynamically aligned elements. -/
theorem C60_popInto_unaligned {G : Prop} {v : UVec T β} {ys : List (Val T β)} {x : Val T β} (h : v.Represents G c (ys ++ [x]))
    (env : Env (Val T β)) :
    ∃ e st v1, Api.popInto (unalignedP c T) env v = some e ∧ e v = .ok st v1 ∧ st.md = x.md ∧ st.layout = ⟨x.size, x.align⟩ := by
  obtain ⟨st, v1, h1, h2⟩ := (UVec.impl G c T).pop h env
  refine ⟨_, st, v1, ?_, h1, h2.md, h2.layout⟩
  unfold Api.popInto
  rw [if_pos (by rw [(UVec.impl G c T).len_eq h]; simp)]

/-- C60 for `remove_into`, dynamically aligned elements. -/
theorem C60_removeInto_unaligned {G : Prop} {v : UVec T β} {xs : List (Val T β)} (h : v.Represents G c xs) (env : Env (Val T β))
    {i : Nat} (hi : i < xs.length) :
    ∃ st, Api.removeInto (unalignedP c T) env i v = .ok st v ∧ st.md = xs[i].md ∧ st.layout = ⟨xs[i].size, xs[i].align⟩ := by
  obtain ⟨st, h1, h2, h3⟩ := UVec.removeIntoUnchecked_start env h i hi
  refine ⟨st, ?_, h3, h2⟩
  unfold Api.removeInto
  rw [Exec.get_bind, Exec.assert_bind (by rw [(UVec.impl G c T).len_eq h]; exact hi)]
  exact h1

/-- C60 for `pop_into`, sized elements. -/
theorem C60_popInto_sized {v : SVec sz al β} {ys : List (Val (sizedTy sz al) β)} {x : Val (sizedTy sz al) β} (h : v.Holds c (ys ++ [x]))
    (env : Env (Val (sizedTy sz al) β)) :
    ∃ e st v1, Api.popInto (sizedP c sz al) env v = some e ∧ e v = .ok st v1 ∧ st.layout = ⟨sz, al⟩ := by
  obtain ⟨st, v1, h1, h2⟩ := SVec.popIntoUnchecked_gives h env
  refine ⟨_, st, v1, ?_, h1, h2.layout⟩
  unfold Api.popInto
  rw [if_pos (by show v.len ≠ 0; rw [h.len]; simp)]
  rfl

/-- C60 for `remove_into`, sized elements. -/
theorem C60_removeInto_sized {v : SVec sz al β} {xs : List (Val (sizedTy sz al) β)} (h : v.Holds c xs)
    (env : Env (Val (sizedTy sz al) β)) {i : Nat} (hi : i < xs.length) :
    ∃ st v1, Api.removeInto (sizedP c sz al) env i v = .ok st v1 ∧ st.layout = ⟨sz, al⟩ := by
  obtain ⟨st, v1, h1, h2⟩ := SVec.removeIntoUnchecked_gives h env hi
  refine ⟨st, v1, ?_, h2.layout⟩
  unfold Api.removeInto
  rw [Exec.get_bind, Exec.assert_bind (by show i < v.len; rw [h.len]; exact hi)]
  exact h1

/-- The safety contract of emplacables (emplacable/src/lib.rs:427–470) is broken by every `pop_into` of an element whose alignment is not
`ALIGN`. -/
theorem C60_popInto_unsound (hA : A.Fits c) {v : AVec A β} {ys : List (Val A.ty β)} {x : Val A.ty β} (h : v.Holds c (ys ++ [x]))
    (env : Env (Val A.ty β)) (hn : x.align ≠ A.ALIGN) :
    ∃ e, Api.popInto (alignedP c A) env v = some e ∧ ¬ e.Sound c v := by
  obtain ⟨e, st, v1, h1, h2, h3, h4, _⟩ := C60_popInto_aligned hA h env
  refine ⟨e, h1, fun hs => hn ?_⟩
  have h5 := hs.layout st v1 h2
  rw [h4, h3] at h5
  exact (congrArg Layout.align h5).symm

/-! ## Boxes -/

/-- What `box_new_with` makes of a value that is announced with the alignment `al`. -/
theorem boxing_givenAs {T : UTy} {X : Type} {env : Env (Val T β)} {env' : Env X} {x : Val T β} (hx : x.WF c) (h0 : 0 < x.size) (al : Nat)
    (ds : List (Val T β)) {t : Sink.BoxSt T β} (ht : t.heap.block = none) :
    (env'.alloc ⟨x.size, al⟩ = none ∧ run (givenAs ⟨x.size, al⟩ env x) (Sink.boxing env') (ds, t) = .abort) ∨
    ∃ q ex h', env'.alloc ⟨x.size, al⟩ = some (q, ex) ∧
      run (givenAs ⟨x.size, al⟩ env x) (Sink.boxing env') (ds, t) = .ok () (ds, ⟨h', some (q, x.md)⟩) ∧
      h'.block = some ⟨q, x.size, x.size + ex, al⟩ ∧ h'.leaks = t.heap.leaks ∧ BytesAre h'.mem 0 x.bytes := by
  have hgiven : ∀ s, givenAs ⟨x.size, al⟩ env x s = .ok _ s := fun s => rfl
  unfold run
  rw [Exec.bind_ok (liftL_ok (hgiven _))]
  dsimp only
  cases ha : env'.alloc ⟨x.size, al⟩ with
  | none =>
    refine .inl ⟨rfl, ?_⟩
    refine Exec.bind_abort (liftR_abort ?_)
    unfold Sink.boxing
    refine Exec.bind_abort ?_
    unfold Sink.boxAlloc
    dsimp only
    rw [if_neg (by omega), Exec.get_bind]
    unfold Heap.allocate
    rw [ha]
    rfl
  | some r =>
    obtain ⟨q, ex⟩ := r
    let t1 : Sink.BoxSt T β := { t with heap := Heap.fresh (fun _ => default) ⟨x.size, al⟩ (q, ex) t.heap.leaks }
    obtain ⟨h', e1, e2, e3, e4⟩ := fill_ok (t := t1) (p := q) (bs := x.bytes) (by
      rw [hx.bytes_len]; show x.size ≤ Heap.span _ _; simp [t1, Heap.fresh, Heap.span])
    refine .inr ⟨q, ex, h', rfl, ?_, e2, e3, e4⟩
    have h1 : Sink.boxing env' ⟨x.size, al⟩ x.md t = .ok (.place (Sink.fill q)
        (Exec.modify (fun s => { s with made := some (q, x.md) })) (Sink.dealloc q ⟨x.size, al⟩)) t1 := by
      unfold Sink.boxing
      rw [Exec.bind_ok (a := q) (s' := t1)]
      · rfl
      · unfold Sink.boxAlloc
        dsimp only
        rw [if_neg (by omega), Exec.get_bind]
        unfold Heap.allocate
        rw [ha, ht]
        rfl
    rw [Exec.bind_ok (liftR_ok h1)]
    dsimp only
    have h2 : placeInto (fun s : List (Val T β) => WriteRes.done x.bytes s) (Sink.fill q) (Sink.dealloc q ⟨x.size, al⟩) (ds, t1) =
        .ok () (ds, { t1 with heap := h' }) := liftR_ok e1
    rw [Exec.bind_ok h2]
    rfl

/-- C60: `box_new_with(vec.pop_into().unwrap())` moves the last element into a box whose memory has been allocated with the alignment
`ALIGN`. It fails only if the allocator refuses that. -/
theorem C60_box (hA : A.Fits c) {v : AVec A β} {ys : List (Val A.ty β)} {x : Val A.ty β} (h : v.Holds c (ys ++ [x])) (h0 : 0 < x.size)
    (env : Env (Val A.ty β)) {X : Type} (env' : Env X) {t : Sink.BoxSt A.ty β} (ht : t.heap.block = none) :
    ∃ e, Api.popInto (alignedP c A) env v = some e ∧
      (run e (Sink.boxing env') (v, t)).Meets
        (fun _ st => st.1.Holds c ys ∧ st.1.drops = v.drops ∧ ∃ q b, st.2.made = some (q, x.md) ∧ st.2.heap.block = some b ∧
          b.addr = q ∧ b.reqSize = x.size ∧ b.align = A.ALIGN ∧ x.size ≤ b.granted ∧ BytesAre st.2.heap.mem 0 x.bytes ∧
          st.2.heap.leaks = t.heap.leaks)
        (fun _ => False) (env'.alloc ⟨x.size, A.ALIGN⟩ = none) := by
  obtain ⟨e, h1, h2⟩ := (C02_popInto_aligned hA h env).2 ys x rfl
  refine ⟨e, h1, ?_⟩
  have h3 := h2 (Sink.boxing env') t
  have hx : x.WF c := h.wf x (by simp)
  rcases boxing_givenAs (env := env) (env' := env') hx h0 A.ALIGN v.drops ht with ⟨h4, h5⟩ | ⟨q, ex, h', h4, h5, h6, h7, h8⟩
  · rw [h5] at h3
    cases hr : run e (Sink.boxing env') (v, t) with
    | abort => exact h4
    | _ => rw [hr] at h3; exact h3.elim
  · rw [h5] at h3
    obtain ⟨v', h9, h10, h11⟩ := h3.ok
    rw [h9]
    exact ⟨h10, h11, q, _, rfl, h6, rfl, rfl, rfl, Nat.le_add_right _ _, h8, h7⟩

/-- Dropping a box whose memory was allocated with the alignment `a`. -/
theorem dropBox_of_block {T : UTy} {x : Val T β} (hx : x.WF c) (h0 : 0 < x.size) {t : Sink.RcSt T β} {q : Nat} {b : Block}
    (h1 : t.box.made = some (q, x.md)) (h2 : t.box.heap.block = some b) (h3 : b.addr = q) (h4 : b.reqSize = x.size)
    (h5 : x.size ≤ b.granted) (h6 : BytesAre t.box.heap.mem 0 x.bytes) (env : Env (Val T β)) :
    (Sink.dropBox env t = .ub ↔ x.align ≠ b.align) := by
  unfold Sink.dropBox
  have hs : T.sizeOf x.md = x.size := rfl
  have ha : T.alignOf x.md = x.align := rfl
  have hr : t.box.heap.read q 0 x.size = some x.bytes := by
    rw [read_eq (by simp only [Heap.span, h2, if_pos h3.symm]; omega), bytesAt_eq h6 hx.bytes_len]
  rw [Exec.get_bind, Exec.orUb_bind h1]
  simp only [hs, ha]
  rw [Exec.orUb_bind hr]
  by_cases hal : x.align = b.align
  · have hd := deallocate_ok (h := t.box.heap) (p := q) (l := ⟨x.size, x.align⟩) h0
      (by unfold Heap.fits; rw [h2]; exact ⟨h3.symm, hal, by show b.reqSize ≤ x.size; omega, h5⟩)
    rw [Exec.orUb_bind hd]
    refine ⟨fun h => ?_, fun h => absurd hal h⟩
    revert h
    show (if env.dropPanics ⟨x.md, x.bytes⟩ then _ else _ : Exec _ _) _ = _ → _
    split <;> intro h <;> cases h
  · have hd : t.box.heap.deallocate q ⟨x.size, x.align⟩ = none := by
      unfold Heap.deallocate
      rw [if_neg (by show x.size ≠ 0; omega), if_neg]
      unfold Heap.fits
      rw [h2]
      exact fun h => hal h.2.1
    refine ⟨fun _ => hal, fun _ => ?_⟩
    rw [hd]
    rfl

/-- C60: dropping a box that was made by `box_new_with(vec.pop_into().unwrap())` is undefined behaviour exactly if the alignment of the
element is not `ALIGN`. -/
theorem C60_box_drop (hA : A.Fits c) {v : AVec A β} {ys : List (Val A.ty β)} {x : Val A.ty β} (h : v.Holds c (ys ++ [x])) (h0 : 0 < x.size)
    (env : Env (Val A.ty β)) {X : Type} (env' : Env X) {t : Sink.BoxSt A.ty β} (ht : t.heap.block = none) {e : Emplacable (AVec A β) A.ty β}
    (he : Api.popInto (alignedP c A) env v = some e) {v' : AVec A β} {t' : Sink.BoxSt A.ty β}
    (hr : run e (Sink.boxing env') (v, t) = .ok () (v', t')) (env'' : Env (Val A.ty β)) {u : Sink.RcSt A.ty β} (hu : u.box = t') :
    (Sink.dropBox env'' u = .ub ↔ x.align ≠ A.ALIGN) := by
  obtain ⟨e', h1, h2⟩ := C60_box hA h h0 env env' ht
  rw [he] at h1
  cases h1
  rw [hr] at h2
  obtain ⟨_, _, q, b, h3, h4, h5, h6, h7, h8, h9, _⟩ := h2
  have h3 : t'.made = some (q, x.md) := h3
  have h4 : t'.heap.block = some b := h4
  rw [← h7]
  exact dropBox_of_block (h.wf x (by simp)) h0 (by rw [hu]; exact h3) (by rw [hu]; exact h4) h5 h6 h8 (by rw [hu]; exact h9) env''

/-- C60 for `CStr`: whatever the vector, the allocator and the target (unless references have alignment 1), dropping the `Box<CStr>` made
by `box_new_with(vec.pop_into().unwrap())` is undefined behaviour. -/
theorem C60_cstr_box_drop (hu : IsAlign c c.usizeAlign) (h1 : c.usizeAlign ≠ 1) {v : AVec (ATy.cstr c) β}
    {ys : List (Val (ATy.cstr c).ty β)} {x : Val (ATy.cstr c).ty β} (h : v.Holds c (ys ++ [x])) (env : Env (Val (ATy.cstr c).ty β)) {X : Type}
    (env' : Env X) {t : Sink.BoxSt (ATy.cstr c).ty β} (ht : t.heap.block = none) {e : Emplacable (AVec (ATy.cstr c) β) (ATy.cstr c).ty β}
    (he : Api.popInto (alignedP c (ATy.cstr c)) env v = some e) {v' : AVec (ATy.cstr c) β} {t' : Sink.BoxSt (ATy.cstr c).ty β}
    (hr : run e (Sink.boxing env') (v, t) = .ok () (v', t')) (env'' : Env (Val (ATy.cstr c).ty β)) {u : Sink.RcSt (ATy.cstr c).ty β}
    (hb : u.box = t') : Sink.dropBox env'' u = .ub :=
  (C60_box_drop (C60_cstr_lawful hu).fits h x.md.2.1 env env' ht he hr env'' hb).2 fun h2 => h1 h2.symm

/-- C60: `push_with` with an emplacable that announces a size larger than `ValidSize::MAX` is undefined behaviour. For types with `ALIGN`
equal to the alignment there are no such values; for `CStr` there are. -/
theorem C60_pushWith_large {e : Emplacable σ A.ty β} {s s1 : σ} {st : Started σ A.ty β} (he : e s = .ok st s1)
    (hn : VS.max c A.ALIGN < st.layout.size) (env : Env (Val A.ty β)) (v : AVec A β) :
    Api.pushWithRun (alignedP c A) env e (s, v) = .ub := by
  unfold Api.pushWithRun run
  rw [Exec.bind_ok (liftL_ok he)]
  refine Exec.bind_ub (liftR_ub ?_)
  show AVec.pushWith c env st.layout st.md v = .ub
  unfold AVec.pushWith
  have : VS.newUnchecked c A.ALIGN st.layout.size = none := by unfold VS.newUnchecked; rw [if_neg (by omega)]
  rw [this]
  rfl

/-- Such a `CStr` is a legal value: if `ALIGN` is not 1, `isize::MAX` bytes are too many for `push_with`. -/
theorem C60_cstr_large (h1 : 1 < c.usizeAlign) (hi : 0 < c.isizeMax) {bs : List β} (hb : bs.length = c.isizeMax) (hc : 0 < c.bits) (env : Env (Val (ATy.cstrAny c).ty β))
    (v : AVec (ATy.cstrAny c) β) (ds : List (Val (ATy.cstrAny c).ty β)) :
    (⟨(bs.length : Nat), bs⟩ : Val (ATy.cstrAny c).ty β).WF c ∧
      Api.pushWithRun (alignedP c (ATy.cstrAny c)) env (given env ⟨(bs.length : Nat), bs⟩) (ds, v) = .ub := by
  refine ⟨⟨?_, ⟨0, hc, rfl⟩, Nat.one_dvd _, ?_⟩, C60_pushWith_large (c := c) (A := ATy.cstrAny c) rfl ?_ env v⟩
  · show bs.length = bs.length * 1; omega
  · show bs.length * 1 + (1 - 1) ≤ _; omega
  · show c.isizeMax - (c.usizeAlign - 1) < bs.length * 1; omega

end

/-! ## Concrete cases -/

namespace Sample

/-- The C string `"hi"`: three bytes, the last one nul. -/
def hi : Val (ATy.cstr c64).ty Nat := ⟨⟨3, by decide⟩, [104, 105, 0]⟩

/-- The empty C string. -/
def nul : Val (ATy.cstr c64).ty Nat := ⟨⟨1, by decide⟩, [0]⟩

/-- A vector of the C strings `""` and `"hi"`. -/
def vecC : AVec (ATy.cstr c64) Nat where
  ptr := 65536
  byteCap := 8
  elems := [⟨⟨1, by decide⟩, 1⟩, ⟨⟨3, by decide⟩, 4⟩]
  elemsCap := 4
  heap := ⟨fun i => [0, 104, 105, 0].getD i 0, some ⟨65536, 8, 8, 8⟩, 0⟩
  drops := []

end Sample

theorem hi_wf : hi.WF c64 := ⟨rfl, ⟨0, by decide, rfl⟩, Nat.one_dvd _, by decide⟩
theorem nul_wf : nul.WF c64 := ⟨rfl, ⟨0, by decide, rfl⟩, Nat.one_dvd _, by decide⟩

theorem cstr_lawful : (ATy.cstr c64).Lawful c64 := C60_cstr_lawful ⟨3, by decide, rfl⟩

theorem vecC_holds : vecC.Holds c64 [nul, hi] := by
  refine ⟨?_, fun x _ => rfl, rfl, by decide, by decide, by decide, by refine ⟨?_, ?_, trivial⟩ <;> decide,
    by refine ⟨?_, ?_, ?_, ?_, ?_, ?_, ?_⟩ <;> decide, rfl⟩
  intro x hx
  simp only [List.mem_cons, List.not_mem_nil, or_false] at hx
  rcases hx with rfl | rfl
  · exact nul_wf
  · exact hi_wf

example : IsAlign c64 c64.usizeAlign ∧ c64.usizeAlign ≠ 1 ∧ vecC.Holds c64 ([nul] ++ [hi]) ∧ hi.align ≠ (ATy.cstr c64).ALIGN :=
  ⟨⟨3, by decide, rfl⟩, by decide, vecC_holds, by decide⟩

/-- C02 is false of the code in one respect: the last element of `vecC` has alignment 1 and is announced with alignment 8. -/
theorem C02_counterexample :
    vecC.Holds c64 ([nul] ++ [hi]) ∧ hi.align = 1 ∧
    ∃ e st v1, Api.popInto (alignedP c64 (ATy.cstr c64)) env vecC = some e ∧ e vecC = .ok st v1 ∧ st.layout = ⟨3, 8⟩ := by
  obtain ⟨e, st, v1, h1, h2, _, h4, _⟩ := C60_popInto_aligned cstr_lawful.fits (ys := [nul]) vecC_holds env
  exact ⟨vecC_holds, rfl, e, st, v1, h1, h2, h4⟩

/-- C05 is false of the code in the same respect. -/
theorem C05_counterexample_cstr :
    vecC.Holds c64 [nul, hi] ∧ nul.align = 1 ∧
    ∃ st v1, Api.removeInto (alignedP c64 (ATy.cstr c64)) env 0 vecC = .ok st v1 ∧ st.layout = ⟨1, 8⟩ := by
  obtain ⟨st, v1, h1, _, h3, _⟩ := C60_removeInto_aligned cstr_lawful.fits vecC_holds env (i := 0) (by decide)
  exact ⟨vecC_holds, rfl, st, v1, h1, h3⟩

/-- C60: `box_new_with(vec.pop_into().unwrap())` makes a box of `"hi"`; dropping it is undefined behaviour. -/
theorem C60_counterexample :
    ∃ e v' t', Api.popInto (alignedP c64 (ATy.cstr c64)) env vecC = some e ∧
      run e (Sink.boxing (env : Env Unit)) (vecC, ⟨⟨fun _ => 0, none, 0⟩, none⟩) = .ok () (v', t') ∧ v'.Holds c64 [nul] ∧
      ∀ (u : Sink.RcSt (ATy.cstr c64).ty Nat), u.box = t' → Sink.dropBox env u = .ub := by
  obtain ⟨e, h1, h2⟩ := C60_box cstr_lawful.fits (ys := [nul]) vecC_holds (by decide) env (env : Env Unit)
    (t := ⟨⟨fun _ => 0, none, 0⟩, none⟩) rfl
  cases hr : run e (Sink.boxing (env : Env Unit)) (vecC, ⟨⟨fun _ => 0, none, 0⟩, none⟩) with
  | ok _ s =>
    rw [hr] at h2
    exact ⟨e, s.1, s.2, h1, hr, h2.1, fun u hu => C60_cstr_box_drop ⟨3, by decide, rfl⟩ (by decide) (ys := [nul]) vecC_holds env (env : Env Unit) rfl h1 hr env hu⟩
  | panic _ => rw [hr] at h2; exact h2.elim
  | abort => rw [hr] at h2; exact nomatch h2
  | ub => rw [hr] at h2; exact h2.elim

example : 1 < c64.usizeAlign ∧ 0 < c64.isizeMax ∧ (List.replicate c64.isizeMax 0).length = c64.isizeMax ∧ 0 < c64.bits :=
  ⟨by decide, by decide, List.length_replicate, by decide⟩

end Verif
