import Verif.Proofs.UReserve
import Verif.Proofs.Storage

set_option linter.unusedSectionVars false

/-!
# Dynamically aligned vectors: adding, removing, reading
-/

namespace Verif
namespace UVec
variable {T : UTy} {β : Type} {G : Prop} {c : Cfg} {v : UVec T β} {xs : List (Val T β)}

theorem Represents.le_w (h : v.Represents G c xs) (n : Nat) : n ≤ padTo v.align n := le_padTo h.al.pos n

theorem Represents.bytes (h : v.Represents G c xs) : ∀ x ∈ xs, x.bytes.length = x.size := fun x hx => (h.wf x hx).bytes_len

theorem unalignedByteLen_eq (h : v.Represents G c xs) : v.unalignedByteLen = extent (padTo v.align) xs := by
  unfold unalignedByteLen
  rw [h.infos]
  exact lastEnd_infosFrom _ _ _

variable [Inhabited β]

theorem Represents.span (h : v.Represents G c xs) : v.byteCap ≤ v.heap.span v.ptr := h.block.span

/-! ## single steps -/

theorem memwrite_eq {p dst : Nat} {bs : List β} (h : dst + bs.length ≤ v.heap.span p) :
    memwrite p dst bs v = .ok () { v with heap := { v.heap with mem := written v.heap.mem dst bs } } := by
  unfold memwrite
  rw [Exec.get_bind, Exec.orUb_bind (write_eq h)]; rfl

theorem memmove_eq {p src dst n : Nat} (h1 : src + n ≤ v.heap.span p) (h2 : dst + n ≤ v.heap.span p) :
    memmove p src dst n v = .ok () { v with heap := { v.heap with mem := moved v.heap.mem src dst n } } := by
  unfold memmove
  rw [Exec.get_bind, Exec.orUb_bind (copy_eq h1 h2)]; rfl

omit [Inhabited β] in
theorem infoPush_eq {info : Info T.Meta} (h : v.elems.length < v.elemsCap) :
    infoPush info v = .ok () { v with elems := v.elems ++ [info] } := by
  unfold infoPush
  rw [Exec.get_bind, Exec.require_bind h]; rfl

omit [Inhabited β] in
theorem infoInsert_eq {i : Nat} {info : Info T.Meta} (h : v.elems.length < v.elemsCap) (hi : i ≤ v.elems.length) :
    infoInsert i info v = .ok () { v with elems := v.elems.take i ++ info :: v.elems.drop i } := by
  unfold infoInsert
  rw [Exec.get_bind, Exec.require_bind ⟨h, hi⟩]; rfl

omit [Inhabited β] in
theorem adjustFrom_eq {i : Nat} {f : List (Info T.Meta) → Option (List (Info T.Meta))} {es : List (Info T.Meta)}
    (hi : i ≤ v.elems.length) (hf : f (v.elems.drop i) = some es) :
    adjustFrom i f v = .ok () { v with elems := v.elems.take i ++ es } := by
  unfold adjustFrom
  rw [Exec.get_bind, Exec.require_bind hi, Exec.orUb_bind hf]; rfl

/-! ## reading -/

theorem mkRef_elem (h : v.Represents G c xs) (i : Nat) (hi : i < xs.length) :
    mkRef v.heap v.ptr (totalWidth (padTo v.align) (xs.take i)) xs[i].md =
      some ⟨v.ptr, totalWidth (padTo v.align) (xs.take i), xs[i].md⟩ := by
  have h1 := h.elem_le i hi
  have h2 := h.cap
  have h3 := h.span
  have hx : xs[i] ∈ xs := List.getElem_mem hi
  have hd : xs[i].align ∣ v.align := h.elemAl _ hx
  refine mkRef_eq ?_ ?_
  · show _ + xs[i].size ≤ _
    omega
  · exact Nat.dvd_add (Nat.dvd_trans hd h.block.2.1) (Nat.dvd_trans hd (dvd_totalWidth _))

theorem read_elem (h : v.Represents G c xs) (i : Nat) (hi : i < xs.length) :
    (⟨v.ptr, totalWidth (padTo v.align) (xs.take i), xs[i].md⟩ : Ref T).read v.heap = xs[i] := by
  have hx : xs[i] ∈ xs := List.getElem_mem hi
  refine Ref.read_eq rfl ?_ (h.wf _ hx).bytes_len
  have := memAt_getElem h.mem i hi
  simpa using this

theorem getUnchecked_eq (h : v.Represents G c xs) (i : Nat) (hi : i < xs.length) :
    getUnchecked c v i = some ⟨v.ptr, totalWidth (padTo v.align) (xs.take i), xs[i].md⟩ := by
  have h1 := h.elem_le i hi
  have h2 := h.total_le
  unfold getUnchecked
  rw [startOffset_eq h i (by omega), h.infos, infosFrom_getElem?, List.getElem?_eq_getElem hi]
  simp only [Option.bind_eq_bind, Option.bind_some, Option.map_some, Nat.zero_add, id]
  rw [VSU.uncheckedSub_eq (by omega) (by omega), Option.bind_some, mkRef_elem h i hi]

/-! ## push -/

theorem Represents.room_pad (h : v.Represents G c xs) (hd : v.align ∣ v.byteCap) {s : Nat} (hs : totalWidth (padTo v.align) xs + s ≤ v.byteCap) :
    totalWidth (padTo v.align) xs + padTo v.align s ≤ v.byteCap := by
  rw [← padTo_add h.al.pos (dvd_totalWidth xs)]
  exact padTo_least h.al.pos hd hs

theorem Represents.room_of (h : v.Represents G c xs) {s : Nat} (hr : RoomOk v xs s)
    (hs : totalWidth (padTo v.align) xs + s ≤ v.byteCap) : totalWidth (padTo v.align) xs + padTo v.align s ≤ v.byteCap := by
  rcases hr with h1 | h1 | h1
  · exact h.room_pad h1 hs
  · exact h1
  · omega

/-- The vector after `x` has been stored behind the last element. -/
def pushed (v : UVec T β) (xs : List (Val T β)) (x : Val T β) : UVec T β :=
  { v with
    elems := infosFrom id (padTo v.align) 0 (xs ++ [x])
    heap := { v.heap with mem := written v.heap.mem (totalWidth (padTo v.align) xs) x.bytes } }

theorem pushed_holds (h : v.Represents G c xs) {x : Val T β} (hx : x.WF c) (hal : x.align ∣ v.align)
    (hrec : xs.length < v.elemsCap) (hroom : totalWidth (padTo v.align) xs + padTo v.align x.size ≤ v.byteCap) :
    (pushed v xs x).Represents G c (xs ++ [x]) where
  wf := by
    intro y hy
    rcases List.mem_append.mp hy with hy | hy
    · exact h.wf y hy
    · obtain rfl := List.mem_singleton.mp hy; exact hx
  al := h.al
  elemAl := by
    intro y hy
    rcases List.mem_append.mp hy with hy | hy
    · exact h.elemAl y hy
    · obtain rfl := List.mem_singleton.mp hy; exact hal
  infos := rfl
  recs := by simp [pushed]; omega
  cap := by
    simpa [pushed] using hroom
  capDvd := h.capDvd
  room := h.room
  mem := memAt_push h.le_w h.bytes h.mem
  block := h.block.mem_eq rfl
  leaks := h.leaks

theorem pushUnchecked_eq (h : v.Represents G c xs) {x : Val T β} (hx : x.WF c) (hal : x.align ∣ v.align)
    (hrec : xs.length < v.elemsCap) (hroom : totalWidth (padTo v.align) xs + x.size ≤ v.byteCap) :
    pushUnchecked c x v = .ok () (pushed v xs x) := by
  have hl := h.length
  have hc := h.capMax
  have hs := h.span
  unfold pushUnchecked
  rw [Exec.get_bind, Exec.debugAssert_bind (by unfold len; omega), Exec.orUb_bind (alignedByteLen_eq h),
    Exec.debugAssert_bind hroom, Exec.debugAssert_bind (Nat.le_of_dvd h.al.pos hal),
    Exec.bind_ok (memwrite_eq (by rw [hx.bytes_len]; omega)),
    Exec.orUb_bind (VSU.uncheckedAdd_eq (by omega)), infoPush_eq (by simp only; omega)]
  unfold pushed
  rw [infosFrom_concat, h.infos]
  simp

/-! ## pop -/

/-- The vector without its last record. -/
def popped (v : UVec T β) (xs : List (Val T β)) : UVec T β :=
  { v with elems := infosFrom id (padTo v.align) 0 xs }

theorem popped_holds {x : Val T β} (h : v.Represents G c (xs ++ [x])) : (popped v xs).Represents G c xs where
  wf y hy := h.wf y (by simp [hy])
  al := h.al
  elemAl y hy := h.elemAl y (by simp [hy])
  infos := rfl
  recs := by have := h.recs; simp at this; simp [popped]; omega
  cap := by have := h.cap; simp at this; simp [popped]; omega
  capDvd := h.capDvd
  room := h.room
  mem := (memAt_append.mp h.mem).1
  block := h.block
  leaks := h.leaks

theorem layout_elem {x : Val T β} (hx : x.WF c) : layoutUnchecked c x.size x.align = some ⟨x.size, x.align⟩ :=
  layoutUnchecked_eq hx.align_pow hx.size_le

theorem dropInPlace_eq {env : Env (Val T β)} {p off : Nat} {md : T.Meta} {r : Ref T} {x : Val T β}
    (hr : mkRef v.heap p off md = some r) (hx : r.read v.heap = x) :
    dropInPlace env p off md v =
      if env.dropPanics x then .panic { v with drops := v.drops ++ [x] } else .ok () { v with drops := v.drops ++ [x] } := by
  unfold dropInPlace
  rw [Exec.get_bind, Exec.orUb_bind hr, Exec.modify_bind, hx]
  split <;> rfl

/-- What a removal started on `v` offers to the emplacer. `v1` is the vector while the value is being moved. -/
structure Offers (env : Env (Val T β)) (st : Started (UVec T β) T β) (v1 : UVec T β) (x : Val T β) (v2 : UVec T β) : Prop where
  layout : st.layout = ⟨x.size, x.align⟩
  md : st.md = x.md
  write : st.write v1 = .done x.bytes v1
  dropVal : st.dropVal v1 = if env.dropPanics x then .panic { v1 with drops := v1.drops ++ [x] }
    else .ok () { v1 with drops := v1.drops ++ [x] }
  finish : ∀ d, st.finish { v1 with drops := d } = .ok () { v2 with drops := d }

theorem copyOut_eq (h : v.Represents G c xs) (i : Nat) (hi : i < xs.length) :
    copyOut v.ptr (totalWidth (padTo v.align) (xs.take i)) xs[i].size v = .done xs[i].bytes v := by
  have h1 := h.elem_le i hi
  have h2 := h.cap
  have h3 := h.span
  have hx : xs[i] ∈ xs := List.getElem_mem hi
  unfold copyOut
  rw [read_eq (by omega), bytesAt_eq (by simpa using memAt_getElem h.mem i hi) (h.wf _ hx).bytes_len]

theorem popIntoUnchecked_spec (env : Env (Val T β)) {x : Val T β} (h : v.Represents G c (xs ++ [x])) :
    ∃ st, popIntoUnchecked c env v = .ok st (popped v xs) ∧ Offers env st (popped v xs) x (popped v xs) := by
  have hw := popped_holds h
  have hi : xs.length < (xs ++ [x]).length := by simp
  have h1 := h.elem_le xs.length hi
  have h2 := h.total_le
  have h3 := h.span
  have h4 := h.cap
  simp only [List.take_left, List.getElem_concat_length] at h1
  have hxm : x ∈ xs ++ [x] := by simp
  have hr := mkRef_elem h xs.length hi
  have hrd := read_elem h xs.length hi
  have hco := copyOut_eq h xs.length hi
  simp only [List.take_left, List.getElem_concat_length] at hr hrd hco
  unfold popIntoUnchecked
  rw [Exec.get_bind, Exec.debugAssert_bind (by rw [h.infos]; intro h0; have := congrArg List.length h0; simp at this),
    Exec.orUb_bind (by rw [h.infos]; exact infosFrom_getLast? _ _ _ _), Exec.modify_bind, Exec.get_bind]
  have e : ({ v with elems := v.elems.dropLast } : UVec T β) = popped v xs := by
    unfold popped; rw [h.infos, infosFrom_dropLast]; simp
  rw [e, Exec.orUb_bind (alignedByteLen_eq hw)]
  dsimp only
  have ea : (popped v xs).align = v.align := rfl
  rw [ea, Exec.orUb_bind (VSU.uncheckedSub_eq (by omega) (by omega)),
    Exec.require_bind (by show _ ≤ _; simp only [popped]; omega)]
  have es : totalWidth (padTo v.align) xs + x.size - totalWidth (padTo v.align) xs = x.size := by omega
  erw [Exec.orUb_bind hr]
  rw [es]
  erw [Exec.orUb_bind (layout_elem (h.wf x hxm))]
  refine ⟨_, rfl, rfl, rfl, ?_, ?_, fun d => rfl⟩
  · show copyOut v.ptr _ _ (popped v xs) = _
    unfold copyOut at hco ⊢
    have : (popped v xs).heap = v.heap := rfl
    rw [this]
    revert hco
    cases v.heap.read v.ptr (totalWidth (padTo v.align) xs) x.size with
    | none => intro h; simp at h
    | some bs => intro h; simp at h; simp [h]
  · exact dropInPlace_eq (v := popped v xs) hr hrd

/-! ## remove -/

/-- The vector after the gap left by element `k` has been closed. -/
def removed (v : UVec T β) (xs : List (Val T β)) (k : Nat) (w : Nat) : UVec T β :=
  { v with
    elems := infosFrom id (padTo v.align) 0 (xs.eraseIdx k)
    heap := { v.heap with
      mem := moved v.heap.mem (totalWidth (padTo v.align) (xs.take k) + w) (totalWidth (padTo v.align) (xs.take k))
        (extent (padTo v.align) (xs.eraseIdx k) - totalWidth (padTo v.align) (xs.take k)) } }

omit [Inhabited β] in
theorem totalWidth_eraseIdx (w : Nat → Nat) (k : Nat) (hk : k < xs.length) :
    totalWidth w (xs.eraseIdx k) + w xs[k].size = totalWidth w xs := by
  rw [List.eraseIdx_eq_take_drop_succ, totalWidth_append]
  have := totalWidth_take_drop w xs (k + 1)
  rw [totalWidth_take_succ w xs k hk] at this
  omega

omit [Inhabited β] in
theorem extent_eraseIdx_of_lt (w : Nat → Nat) (k : Nat) (hk : k + 1 < xs.length) :
    extent w (xs.eraseIdx k) + w xs[k].size = extent w xs := by
  have hne : xs.drop (k + 1) ≠ [] := by
    intro h0; have := congrArg List.length h0; simp at this; omega
  have h1 := extent_append w (xs.take k) (xs.drop (k + 1)) hne
  have h2 := extent_append w (xs.take (k + 1)) (xs.drop (k + 1)) hne
  rw [List.take_append_drop, totalWidth_take_succ w xs k (by omega)] at h2
  rw [List.eraseIdx_eq_take_drop_succ]
  omega

omit [Inhabited β] in
/-- The part of the storage behind the gap covers all elements behind the gap. -/
theorem extent_after_remove (w : Nat → Nat) (hw : ∀ n, n ≤ w n) (k : Nat) (hk : k < xs.length)
    (hle : totalWidth w (xs.take k) ≤ extent w (xs.eraseIdx k)) :
    extent w xs ≤ totalWidth w (xs.take k) + w xs[k].size +
      (extent w (xs.eraseIdx k) - totalWidth w (xs.take k)) := by
  by_cases h : k + 1 < xs.length
  · have := extent_eraseIdx_of_lt w k h
    omega
  · have hk' : k + 1 = xs.length := by omega
    have hxs : xs = xs.take k ++ [xs[k]] := by
      rw [List.take_append_getElem hk, hk', List.take_length]
    have he : extent w xs = totalWidth w (xs.take k) + xs[k].size := by
      conv => lhs; rw [hxs]
      exact extent_concat _ _ _
    have := hw xs[k].size
    omega

theorem removed_holds (h : v.Represents G c xs) (k : Nat) (hk : k < xs.length)
    (hle : totalWidth (padTo v.align) (xs.take k) ≤ extent (padTo v.align) (xs.eraseIdx k)) :
    (removed v xs k (padTo v.align xs[k].size)).Represents G c (xs.eraseIdx k) where
  wf y hy := h.wf y (List.mem_of_mem_eraseIdx hy)
  al := h.al
  elemAl y hy := h.elemAl y (List.mem_of_mem_eraseIdx hy)
  infos := rfl
  recs := by have := h.recs; have := List.length_eraseIdx_le xs k; simp [removed]; omega
  cap := by
    have := totalWidth_eraseIdx (padTo v.align) k hk
    have := h.cap
    simp only [removed]
    omega
  capDvd := h.capDvd
  room := h.room
  mem := memAt_remove hk h.le_w h.bytes h.mem (extent_after_remove _ h.le_w k hk hle)
  block := h.block.mem_eq rfl
  leaks := h.leaks

omit [Inhabited β] in
theorem take_eraseIdx_of_le {α : Type} {l : List α} {i j : Nat} (h : i ≤ j) : (l.eraseIdx j).take i = l.take i := by
  rw [List.eraseIdx_eq_take_drop_succ]
  by_cases hj : j ≤ l.length
  · rw [List.take_append_of_le_length (by simp; omega), List.take_take, Nat.min_eq_left h]
  · rw [List.take_of_length_le (i := j) (by omega), List.drop_eq_nil_of_le (by omega), List.append_nil]

theorem removeOk_le (h : v.Represents G c xs) (k : Nat) (hk : k < xs.length) (hok : RemoveOk v xs k) :
    totalWidth (padTo v.align) (xs.take k) ≤ extent (padTo v.align) (xs.eraseIdx k) := by
  rcases hok with h1 | rfl | h1
  · have hne : xs.drop (k + 1) ≠ [] := by
      intro h0; have := congrArg List.length h0; simp at this; omega
    have := extent_append (padTo v.align) (xs.take k) (xs.drop (k + 1)) hne
    rw [List.eraseIdx_eq_take_drop_succ]; omega
  · simp
  · cases k with
    | zero => simp
    | succ k =>
      have hk' : k < xs.length := by omega
      have hd := h1 xs[k] (by simp [hk'])
      have h2 := totalWidth_take_succ (padTo v.align) xs k hk'
      rw [padTo_of_dvd h.al.pos hd] at h2
      have h3 := elem_le_extent (padTo v.align) h.le_w (xs.eraseIdx (k + 1)) k (by rw [List.length_eraseIdx]; split <;> omega)
      rw [List.getElem_eraseIdx_of_lt (h' := by omega), take_eraseIdx_of_le (by omega)] at h3
      omega

theorem removeIntoUnchecked_spec (env : Env (Val T β)) (h : v.Represents G c xs) (k : Nat) (hk : k < xs.length)
    (hle : totalWidth (padTo v.align) (xs.take k) ≤ extent (padTo v.align) (xs.eraseIdx k)) :
    ∃ st, removeIntoUnchecked c env k v = .ok st v ∧
      Offers env st v xs[k] (removed v xs k (padTo v.align xs[k].size)) := by
  have h1 := h.elem_le k hk
  have h2 := h.total_le
  have h3 := h.span
  have h4 := h.cap
  have h5 := totalWidth_take_succ (padTo v.align) xs k hk
  have h6 := totalWidth_take_le (padTo v.align) xs (k + 1)
  have hxm : xs[k] ∈ xs := List.getElem_mem hk
  have hl := h.length
  have hrm := removed_holds h k hk hle
  unfold removeIntoUnchecked
  rw [Exec.get_bind, Exec.debugAssert_bind (by rw [h.len_eq]; exact hk)]
  have hinfo : v.elems[k]? = some ⟨xs[k].md, totalWidth (padTo v.align) (xs.take k) + xs[k].size⟩ := by
    rw [h.infos, infosFrom_getElem?, List.getElem?_eq_getElem hk]; simp
  rw [Exec.orUb_bind hinfo, Exec.orUb_bind (startOffset_eq h k (by omega))]
  have es : totalWidth (padTo v.align) (xs.take k) + xs[k].size - totalWidth (padTo v.align) (xs.take k) = xs[k].size := by
    omega
  dsimp only
  rw [Exec.orUb_bind (VSU.uncheckedSub_eq (by omega) (by omega)), es,
    Exec.orUb_bind (VSU.uncheckedPadTo_eq h.al (by omega) (by omega)),
    Exec.require_bind (by show _ ≤ _; omega), Exec.orUb_bind (mkRef_elem h k hk)]
  erw [Exec.orUb_bind (layout_elem (h.wf _ hxm))]
  refine ⟨_, rfl, rfl, rfl, copyOut_eq h k hk, dropInPlace_eq (mkRef_elem h k hk) (read_elem h k hk), fun d => ?_⟩
  have hd : ({ v with drops := d } : UVec T β).Represents G c xs :=
    ⟨h.wf, h.al, h.elemAl, h.infos, h.recs, h.cap, h.capDvd, h.room, h.mem, h.block, h.leaks⟩
  dsimp only
  rw [Exec.get_bind, Exec.assert_bind (by rw [hl]; exact hk), Exec.set_bind]
  have hlen : (v.elems.eraseIdx k).length = xs.length - 1 := by
    rw [List.length_eraseIdx, if_pos (by omega), hl]
  have htk : (v.elems.eraseIdx k).take k = infosFrom id (padTo v.align) 0 (xs.take k) := by
    rw [h.infos, infosFrom_split _ _ _ _ hk, List.take_left' (by simp; omega)]
  have hdr : (v.elems.eraseIdx k).drop k =
      infosFrom id (padTo v.align) (totalWidth (padTo v.align) (xs.take k) + padTo v.align xs[k].size) (xs.drop (k + 1)) := by
    rw [h.infos, infosFrom_split _ _ _ _ hk, List.drop_left' (by simp; omega)]
  have htd := totalWidth_take_drop (padTo v.align) xs (k + 1)
  rw [Exec.bind_ok (adjustFrom_eq (by simp only; omega) (by simp only [hdr]; exact unbumpInfos_eq h.le_w (by omega)))]
  simp only [htk, ← infosFrom_eraseIdx]
  have hex := extent_le (padTo v.align) h.le_w (xs.eraseIdx k)
  have her := totalWidth_eraseIdx (padTo v.align) k hk
  rw [Exec.get_bind]
  unfold unalignedByteLen
  dsimp only
  rw [lastEnd_infosFrom, Exec.orUb_bind (VSU.uncheckedSub_eq hle (by omega)),
    Exec.require_bind (by show _ ≤ _; omega), memmove_eq (by dsimp only; omega) (by dsimp only; omega)]
  rfl

/-- Up to the call of the emplacer, a removal only looks at the vector. -/
theorem removeIntoUnchecked_start (env : Env (Val T β)) (h : v.Represents G c xs) (k : Nat) (hk : k < xs.length) :
    ∃ st, removeIntoUnchecked c env k v = .ok st v ∧ st.layout = ⟨xs[k].size, xs[k].align⟩ ∧ st.md = xs[k].md := by
  have h1 := h.elem_le k hk
  have h2 := h.total_le
  have h3 := h.span
  have h4 := h.cap
  have h5 := totalWidth_take_succ (padTo v.align) xs k hk
  have h6 := totalWidth_take_le (padTo v.align) xs (k + 1)
  have hxm : xs[k] ∈ xs := List.getElem_mem hk
  unfold removeIntoUnchecked
  rw [Exec.get_bind, Exec.debugAssert_bind (by rw [h.len_eq]; exact hk)]
  have hinfo : v.elems[k]? = some ⟨xs[k].md, totalWidth (padTo v.align) (xs.take k) + xs[k].size⟩ := by
    rw [h.infos, infosFrom_getElem?, List.getElem?_eq_getElem hk]; simp
  rw [Exec.orUb_bind hinfo, Exec.orUb_bind (startOffset_eq h k (by omega))]
  have es : totalWidth (padTo v.align) (xs.take k) + xs[k].size - totalWidth (padTo v.align) (xs.take k) = xs[k].size := by
    omega
  dsimp only
  rw [Exec.orUb_bind (VSU.uncheckedSub_eq (by omega) (by omega)), es,
    Exec.orUb_bind (VSU.uncheckedPadTo_eq h.al (by omega) (by omega)),
    Exec.require_bind (by show _ ≤ _; omega), Exec.orUb_bind (mkRef_elem h k hk)]
  erw [Exec.orUb_bind (layout_elem (h.wf _ hxm))]
  exact ⟨_, rfl, rfl, rfl⟩

end UVec
end Verif
