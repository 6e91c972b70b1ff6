import Verif.Proofs.UOps
import Verif.Proofs.UEmplace

set_option linter.unusedSectionVars false

/-!
# Statically aligned vectors: reservation, adding, removing, reading
-/

namespace Verif
namespace AVec
variable {A : ATy} {β : Type} {c : Cfg} {v : AVec A β} {xs : List (Val A.ty β)}

theorem le_id (n : Nat) : n ≤ id n := Nat.le_refl n

theorem Holds.length (h : v.Holds c xs) : v.elems.length = xs.length := by rw [h.infos, infosFrom_length]
theorem Holds.len_eq (h : v.Holds c xs) : v.len = xs.length := h.length
theorem Holds.bytes (h : v.Holds c xs) : ∀ x ∈ xs, x.bytes.length = x.size := fun x hx => (h.wf x hx).bytes_len

theorem byteLen_eq (h : v.Holds c xs) : v.byteLen = totalWidth id xs := by
  unfold byteLen
  rw [h.infos, lastEnd_infosFrom, extent_id]

theorem Holds.elem_le (_h : v.Holds c xs) (i : Nat) (hi : i < xs.length) :
    totalWidth id (xs.take i) + xs[i].size ≤ totalWidth id xs := by
  have h1 := totalWidth_take_succ id xs i hi
  have h2 := totalWidth_take_le id xs (i + 1)
  simp only [id] at h1
  omega

theorem startOffset_eq (h : v.Holds c xs) (i : Nat) (hi : i ≤ xs.length) :
    v.startOffset i = some (totalWidth id (xs.take i)) := by
  cases i with
  | zero => simp [startOffset]
  | succ i =>
    have hi' : i < xs.length := by omega
    unfold startOffset
    simp only
    rw [h.infos, infosFrom_getElem?, List.getElem?_eq_getElem hi']
    simp [totalWidth_take_succ id xs i hi']

theorem dvd_width (hA : A.Fits c) (hwf : ∀ x ∈ xs, x.WF c) (md : A.ty.Meta) : A.ty.alignOf md ∣ totalWidth id xs := by
  induction xs with
  | nil => simp
  | cons x xs ih =>
    rw [totalWidth_cons]
    refine Nat.dvd_add ?_ (ih fun y hy => hwf y (by simp [hy]))
    have := (hwf x (by simp)).align_dvd
    unfold Val.align at this
    rw [hA.same _ md] at this
    exact this

theorem Holds.withElemsCap (h : v.Holds c xs) {n : Nat} (hn : xs.length ≤ n) :
    ({ v with elemsCap := n } : AVec A β).Holds c xs :=
  ⟨h.wf, h.keeps, h.infos, hn, h.cap, h.capMax, h.mem, h.block, h.leaks⟩

theorem Holds.withDrops (h : v.Holds c xs) {d : List (Val A.ty β)} :
    ({ v with drops := d } : AVec A β).Holds c xs :=
  ⟨h.wf, h.keeps, h.infos, h.recs, h.cap, h.capMax, h.mem, h.block, h.leaks⟩

theorem tryReserve_spec (h : v.Holds c xs) (env : Env (Val A.ty β)) (n : Nat) :
    (∃ cap, tryReserve c env n v = .ok (.ok ()) { v with elemsCap := cap } ∧ xs.length + n ≤ cap ∧ v.elemsCap ≤ cap ∧
      (xs.length + n ≤ v.elemsCap → cap = v.elemsCap)) ∨
    (∃ e, tryReserve c env n v = .ok (.error e) v ∧
      ((e = .capacityOverflow ∧ c.infoMax < xs.length + n) ∨ env.infoGrow (xs.length + n) = .error e) ∧
      v.elemsCap < xs.length + n) := by
  have hr := h.recs
  have hl : v.len = xs.length := h.length
  unfold tryReserve
  rw [Exec.get_bind]
  unfold stdReserve
  by_cases h1 : n ≤ v.elemsCap - v.len
  · left
    refine ⟨v.elemsCap, ?_, by omega, by omega, fun _ => rfl⟩
    rw [if_pos h1]; rfl
  · by_cases h2 : c.infoMax < v.len + n
    · right
      refine ⟨.capacityOverflow, ?_, .inl ⟨rfl, by omega⟩, by omega⟩
      rw [if_neg h1, if_pos h2]; rfl
    · rw [if_neg h1, if_neg h2]
      cases hg : env.infoGrow (v.len + n) with
      | error e => right; exact ⟨e, rfl, .inr (hl ▸ hg), by omega⟩
      | ok extra =>
        left
        exact ⟨min (v.len + n + extra) c.infoMax, rfl, by omega, by omega, by omega⟩

variable [Inhabited β]

theorem Holds.span (h : v.Holds c xs) : v.byteCap ≤ v.heap.span v.ptr := h.block.span

theorem VS.max_room {a : Nat} (ha : IsAlign c a) {n : Nat} (hn : n ≤ VS.max c a) : n + (a - 1) ≤ c.isizeMax := by
  have := ha.sub_one_le
  unfold VS.max at hn
  omega

/-- The memory obtained from the allocator when the reservation grows the storage. -/
theorem grow_spec (hA : A.Fits c) (h : v.Holds c xs) {env : Env (Val A.ty β)} (hv : env.Valid)
    {newCap : Nat} (hle : v.byteCap ≤ newCap) :
    ∃ res, v.growStorage c env ⟨newCap, A.ALIGN⟩ = some res ∧
      (res = none ∧ env.alloc ⟨newCap, A.ALIGN⟩ = none ∨
       ∃ p mem x, res = some (⟨mem, some ⟨p, newCap, newCap + x, A.ALIGN⟩, 0⟩, p, newCap + x) ∧ env.alloc ⟨newCap, A.ALIGN⟩ = some (p, x) ∧ 0 < p ∧ A.ALIGN ∣ p ∧
        ∀ i, i < v.byteCap → mem i = v.heap.mem i) := by
  unfold growStorage
  by_cases h0 : v.byteCap = 0
  · simp only [if_pos h0]
    refine ⟨_, rfl, ?_⟩
    unfold Heap.allocate
    cases ha : env.alloc ⟨newCap, A.ALIGN⟩ with
    | none => left; simp
    | some r =>
      right
      obtain ⟨p, x⟩ := r
      have hvv := hv _ _ _ hA.al.pos ha
      have hb := h.block
      rw [h0] at hb
      have hn := hb.none_of_zero
      refine ⟨p, fun _ => default, x, ?_, rfl, hvv.1, hvv.2, fun i hi => by omega⟩
      simp [Heap.fresh, hn, h.leaks]
  · simp only [if_neg h0]
    have hl : layoutUnchecked c v.byteCap A.ALIGN = some ⟨v.byteCap, A.ALIGN⟩ :=
      layoutUnchecked_eq hA.al (VS.max_room hA.al h.capMax)
    rw [hl]
    simp only [Option.bind_eq_bind, Option.bind_some]
    unfold Heap.grow
    rw [if_pos ⟨h.block.fits (by omega), hle⟩]
    cases ha : env.alloc ⟨newCap, A.ALIGN⟩ with
    | none => exact ⟨none, rfl, by simp⟩
    | some r =>
      obtain ⟨p, x⟩ := r
      have hvv := hv _ _ _ hA.al.pos ha
      refine ⟨_, rfl, .inr ⟨p, fun i => if i < v.byteCap then v.heap.mem i else default, x, ?_, rfl, hvv.1,
        hvv.2, ?_⟩⟩
      · simp [Heap.fresh, h.leaks]
      · intro i hi; simp [hi]

theorem checkedAdd_new {c : Cfg} {a n m : Nat} :
    (checkedAdd c n m).bind (VS.new c a) = if n + m ≤ VS.max c a then some (n + m) else none := by
  have h1 := VS.max_le_isizeMax c a
  have h2 := c.isizeMax_le_usizeMax
  unfold checkedAdd VS.new
  by_cases h : n + m ≤ c.usizeMax
  · rw [if_pos h]; rfl
  · rw [if_neg h, if_neg (by omega)]; rfl

/-- The effect of a successful byte reservation. -/
structure Reserved (c : Cfg) (v v' : AVec A β) (xs : List (Val A.ty β)) (add : Nat) : Prop where
  holds : v'.Holds c xs
  spare : v.byteCap + add ≤ v'.byteCap
  elemsCap : v'.elemsCap = v.elemsCap
  drops : v'.drops = v.drops
  fresh : 0 < add → v'.heap.block ≠ v.heap.block

/-- The storage has been replaced by one with `n` bytes more. -/
structure Grown (env : Env (Val A.ty β)) (v v' : AVec A β) (n : Nat) : Prop where
  le : v.byteCap + n ≤ v'.byteCap
  fresh : 0 < n → v'.heap.block ≠ v.heap.block
  exact : env.Exact → v'.byteCap = v.byteCap + n
  idle : n = 0 → v'.heap.block = v.heap.block ∧ v'.byteCap = v.byteCap

theorem tryReserveAdditionalBytes_spec (hA : A.Fits c) (h : v.Holds c xs) {env : Env (Val A.ty β)} (hv : env.Valid)
    (add : Nat) :
    (∃ v', tryReserveAdditionalBytes c env add v = .ok (.ok ()) v' ∧ Reserved c v v' xs add ∧ (add = 0 → v' = v) ∧
      (env.Exact → v'.byteCap = v.byteCap + add)) ∨
    (∃ e, tryReserveAdditionalBytes c env add v = .ok (.error e) v ∧
      ((e = .capacityOverflow ∧ VS.max c A.ALIGN < v.byteCap + add) ∨ (e = .allocError ∧ env.alloc (request v add) = none)) ∧
      add ≠ 0) := by
  unfold tryReserveAdditionalBytes
  rw [Exec.get_bind]
  by_cases h0 : add > 0
  rotate_left
  · rw [if_neg h0]
    exact .inl ⟨v, rfl, ⟨h, by omega, rfl, rfl, fun h1 => absurd h1 h0⟩, fun _ => rfl, fun _ => by omega⟩
  rw [if_pos h0, checkedAdd_new]
  by_cases hmax : v.byteCap + add ≤ VS.max c A.ALIGN
  rotate_left
  · rw [if_neg hmax]
    exact .inr ⟨_, rfl, .inl ⟨rfl, by omega⟩, by omega⟩
  rw [if_pos hmax]
  dsimp only
  rw [Exec.orUb_bind (layoutUnchecked_eq hA.al (VS.max_room hA.al hmax))]
  obtain ⟨res, hres, hcase⟩ := grow_spec hA h hv (newCap := v.byteCap + add) (by omega)
  rw [Exec.orUb_bind hres]
  rcases hcase with ⟨rfl, hno⟩ | ⟨p, mem, x, rfl, hal, hp, hpa, hmem⟩
  · exact .inr ⟨_, rfl, .inr ⟨rfl, hno⟩, by omega⟩
  left
  dsimp only
  rw [Exec.modify_bind, VS.newSquished_eq]
  refine ⟨_, rfl, ⟨?_, ?_, rfl, rfl, fun _ => (h.block.block_ne (by dsimp only; omega)).symm⟩, fun h => by omega, fun he => ?_⟩
  · have hc := h.cap
    refine ⟨h.wf, h.keeps, h.infos, h.recs, ?_, ?_, ?_, ?_, rfl⟩
    · dsimp only; omega
    · dsimp only; omega
    · refine h.mem.frame le_id h.bytes fun i _ hi => ?_
      exact hmem i (by omega)
    · exact ⟨hp, hpa, by dsimp only; omega, rfl, rfl, by dsimp only; omega, by dsimp only; omega⟩
  · dsimp only; omega
  · have := he _ _ _ hal
    dsimp only; omega

/-! ## single steps -/

theorem memwrite_eq {p dst : Nat} {bs : List β} (h : dst + bs.length ≤ v.heap.span p) :
    memwrite p dst bs v = .ok () { v with heap := { v.heap with mem := written v.heap.mem dst bs } } := by
  unfold memwrite
  rw [Exec.get_bind, Exec.orUb_bind (write_eq h)]; rfl

theorem memmove_eq {p src dst n : Nat} (h1 : src + n ≤ v.heap.span p) (h2 : dst + n ≤ v.heap.span p) :
    memmove p src dst n v = .ok () { v with heap := { v.heap with mem := moved v.heap.mem src dst n } } := by
  unfold memmove
  rw [Exec.get_bind, Exec.orUb_bind (copy_eq h1 h2)]; rfl

omit [Inhabited β] in
theorem infoPush_eq {info : Info A.R} (h : v.elems.length < v.elemsCap) :
    infoPush info v = .ok () { v with elems := v.elems ++ [info] } := by
  unfold infoPush
  rw [Exec.get_bind, Exec.require_bind h]; rfl

omit [Inhabited β] in
theorem infoInsert_eq {i : Nat} {info : Info A.R} (h : v.elems.length < v.elemsCap) (hi : i ≤ v.elems.length) :
    infoInsert i info v = .ok () { v with elems := v.elems.take i ++ info :: v.elems.drop i } := by
  unfold infoInsert
  rw [Exec.get_bind, Exec.require_bind ⟨h, hi⟩]; rfl

omit [Inhabited β] in
theorem adjustFrom_eq {i : Nat} {f : List (Info A.R) → Option (List (Info A.R))} {es : List (Info A.R)}
    (hi : i ≤ v.elems.length) (hf : f (v.elems.drop i) = some es) :
    adjustFrom i f v = .ok () { v with elems := v.elems.take i ++ es } := by
  unfold adjustFrom
  rw [Exec.get_bind, Exec.require_bind hi, Exec.orUb_bind hf]; rfl

/-! ## reading -/

theorem mkRef_elem (hA : A.Fits c) (h : v.Holds c xs) (i : Nat) (hi : i < xs.length) :
    mkRef v.heap v.ptr (totalWidth id (xs.take i)) xs[i].md =
      some ⟨v.ptr, totalWidth id (xs.take i), xs[i].md⟩ := by
  have h1 := h.elem_le i hi
  have h2 := h.cap
  have h3 := h.span
  refine mkRef_eq ?_ ?_
  · show _ + xs[i].size ≤ _
    omega
  · exact Nat.dvd_add (Nat.dvd_trans (hA.dvd _) h.block.2.1) (dvd_width hA (fun x hx => h.wf x (List.mem_of_mem_take hx)) _)

theorem read_elem (h : v.Holds c xs) (i : Nat) (hi : i < xs.length) :
    (⟨v.ptr, totalWidth id (xs.take i), xs[i].md⟩ : Ref A.ty).read v.heap = xs[i] := by
  have hx : xs[i] ∈ xs := List.getElem_mem hi
  refine Ref.read_eq rfl ?_ (h.wf _ hx).bytes_len
  have := memAt_getElem h.mem i hi
  simpa using this

omit [Inhabited β] in
theorem Holds.dec_eq (h : v.Holds c xs) {x : Val A.ty β} (hx : x ∈ xs) : A.dec (A.enc x.md) x.size = x.md := h.keeps x hx

theorem getUnchecked_eq (hA : A.Fits c) (h : v.Holds c xs) (i : Nat) (hi : i < xs.length) :
    getUnchecked c v i = some ⟨v.ptr, totalWidth id (xs.take i), xs[i].md⟩ := by
  have h1 := h.elem_le i hi
  have h2 := h.cap
  have h3 := h.capMax
  unfold getUnchecked
  rw [startOffset_eq h i (by omega), h.infos, infosFrom_getElem?, List.getElem?_eq_getElem hi]
  simp only [Option.bind_eq_bind, Option.bind_some, Option.map_some, Nat.zero_add]
  rw [VS.uncheckedSub_eq (by omega) (by omega), Option.bind_some,
    show totalWidth id (xs.take i) + xs[i].size - totalWidth id (xs.take i) = xs[i].size by omega, h.dec_eq (List.getElem_mem hi),
    mkRef_elem hA h i hi]

/-! ## push -/

/-- The vector has room for one more element of size `n`. -/
structure Room (c : Cfg) (v : AVec A β) (xs : List (Val A.ty β)) (n : Nat) : Prop where
  holds : v.Holds c xs
  recs : xs.length < v.elemsCap
  bytes : totalWidth id xs + n ≤ v.byteCap

/-- The vector after `x` has been stored behind the last element. -/
def pushed (v : AVec A β) (xs : List (Val A.ty β)) (x : Val A.ty β) : AVec A β :=
  { v with
    elems := infosFrom A.enc id 0 (xs ++ [x])
    heap := { v.heap with mem := written v.heap.mem (totalWidth id xs) x.bytes } }

theorem pushed_holds {x : Val A.ty β} (hx : x.WF c) (hk : A.Keeps x.md) (hr : Room c v xs x.size) :
    (pushed v xs x).Holds c (xs ++ [x]) where
  wf := by
    intro y hy
    rcases List.mem_append.mp hy with hy | hy
    · exact hr.holds.wf y hy
    · obtain rfl := List.mem_singleton.mp hy; exact hx
  keeps := by
    intro y hy
    rcases List.mem_append.mp hy with hy | hy
    · exact hr.holds.keeps y hy
    · obtain rfl := List.mem_singleton.mp hy; exact hk
  infos := rfl
  recs := by have := hr.recs; simp [pushed]; omega
  cap := by
    have := hr.bytes
    simpa [pushed] using this
  capMax := hr.holds.capMax
  mem := memAt_push le_id hr.holds.bytes hr.holds.mem
  block := hr.holds.block.mem_eq rfl
  leaks := hr.holds.leaks

theorem pushUnchecked_eq {x : Val A.ty β} (hx : x.WF c) (hr : Room c v xs x.size) :
    pushUnchecked c x v = .ok () (pushed v xs x) := by
  have h := hr.holds
  have hl := h.length
  have hc := h.capMax
  have hs := h.span
  have hrec := hr.recs
  have hroom := hr.bytes
  unfold pushUnchecked
  rw [Exec.get_bind, Exec.orUb_bind (VS.newUnchecked_eq (by omega)), Exec.debugAssert_bind (by unfold len; omega),
    byteLen_eq h, Exec.debugAssert_bind hroom]
  rw [Exec.bind_ok (memwrite_eq (by rw [hx.bytes_len]; omega)),
    Exec.orUb_bind (VS.uncheckedAdd_eq (by omega)), infoPush_eq (by simp only; omega)]
  unfold pushed
  rw [infosFrom_concat, h.infos]
  simp

omit [Inhabited β] in
theorem stored_keeps (hA : A.Fits c) (x : Val A.ty β) : A.Keeps (A.stored x).md := by
  have h1 := hA.size x.md
  have h2 := hA.rem x.md
  show A.dec (A.enc (A.dec (A.enc x.md) (A.ty.sizeOf x.md))) (A.ty.sizeOf (A.dec (A.enc x.md) (A.ty.sizeOf x.md))) =
    A.dec (A.enc x.md) (A.ty.sizeOf x.md)
  rw [h1, h2]

omit [Inhabited β] in
theorem stored_size (hA : A.Fits c) (x : Val A.ty β) : (A.stored x).size = x.size := hA.size x.md

omit [Inhabited β] in
theorem stored_wf (hA : A.Fits c) {x : Val A.ty β} (hx : x.WF c) : (A.stored x).WF c := by
  have ha : (A.stored x).align = x.align := hA.same _ _
  refine ⟨?_, ?_, ?_, ?_⟩
  · rw [stored_size hA]; exact hx.bytes_len
  · rw [ha]; exact hx.align_pow
  · rw [ha, stored_size hA]; exact hx.align_dvd
  · rw [ha, stored_size hA]; exact hx.size_le

omit [Inhabited β] in
theorem infosFrom_stored (hA : A.Fits c) (ys : List (Val A.ty β)) (x : Val A.ty β) (zs : List (Val A.ty β)) (off : Nat) :
    infosFrom A.enc id off (ys ++ A.stored x :: zs) = infosFrom A.enc id off (ys ++ x :: zs) := by
  induction ys generalizing off with
  | nil =>
    have h1 : A.ty.sizeOf (A.stored x).md = A.ty.sizeOf x.md := stored_size hA x
    have h2 : A.enc (A.stored x).md = A.enc x.md := hA.rem x.md
    simp only [List.nil_append, infosFrom, Val.size, h1, h2]
  | cons y ys ih => simp only [List.cons_append, infosFrom, ih]

theorem pushed_stored (hA : A.Fits c) (x : Val A.ty β) : pushed v xs (A.stored x) = pushed v xs x := by
  unfold pushed
  rw [infosFrom_stored hA]
  rfl

theorem pushed_holds_stored (hA : A.Fits c) {x : Val A.ty β} (hx : x.WF c) (hr : Room c v xs x.size) :
    (pushed v xs x).Holds c (xs ++ [A.stored x]) := by
  rw [← pushed_stored (v := v) (xs := xs) hA]
  exact pushed_holds (stored_wf hA hx) (stored_keeps hA x) (by rw [stored_size hA]; exact hr)

/-! ## pop -/

/-- The vector without its last record. -/
def popped (v : AVec A β) (xs : List (Val A.ty β)) : AVec A β :=
  { v with elems := infosFrom A.enc id 0 xs }

theorem popped_holds {x : Val A.ty β} (h : v.Holds c (xs ++ [x])) : (popped v xs).Holds c xs where
  wf y hy := h.wf y (by simp [hy])
  keeps y hy := h.keeps y (by simp [hy])
  infos := rfl
  recs := by have := h.recs; simp at this; simp [popped]; omega
  cap := by have := h.cap; simp at this; simp [popped]; omega
  capMax := h.capMax
  mem := (memAt_append.mp h.mem).1
  block := h.block
  leaks := h.leaks

theorem layout_elem (hA : A.Fits c) {x : Val A.ty β} (hx : x.WF c) :
    layoutUnchecked c x.size A.ALIGN = some ⟨x.size, A.ALIGN⟩ := by
  exact layoutUnchecked_eq hA.al (hA.room x.md hx.align_dvd hx.size_le)

theorem dropInPlace_eq {env : Env (Val A.ty β)} {p off : Nat} {md : A.ty.Meta} {r : Ref A.ty} {x : Val A.ty β}
    (hr : mkRef v.heap p off md = some r) (hx : r.read v.heap = x) :
    dropInPlace env p off md v =
      if env.dropPanics x then .panic { v with drops := v.drops ++ [x] } else .ok () { v with drops := v.drops ++ [x] } := by
  unfold dropInPlace
  rw [Exec.get_bind, Exec.orUb_bind hr, Exec.modify_bind, hx]
  split <;> rfl

/-- What a removal started on `v` offers to the emplacer. `v1` is the vector while the value is being moved. -/
structure Offers (env : Env (Val A.ty β)) (st : Started (AVec A β) A.ty β) (v1 : AVec A β) (x : Val A.ty β) (v2 : AVec A β) :
    Prop where
  layout : st.layout = ⟨x.size, A.ALIGN⟩
  md : st.md = x.md
  write : st.write v1 = .done x.bytes v1
  dropVal : st.dropVal v1 = if env.dropPanics x then .panic { v1 with drops := v1.drops ++ [x] }
    else .ok () { v1 with drops := v1.drops ++ [x] }
  finish : ∀ d, st.finish { v1 with drops := d } = .ok () { v2 with drops := d }

theorem copyOut_eq (h : v.Holds c xs) (i : Nat) (hi : i < xs.length) :
    copyOut v.ptr (totalWidth id (xs.take i)) xs[i].size v = .done xs[i].bytes v := by
  have h1 := h.elem_le i hi
  have h2 := h.cap
  have h3 := h.span
  have hx : xs[i] ∈ xs := List.getElem_mem hi
  unfold copyOut
  rw [read_eq (by omega), bytesAt_eq (by simpa using memAt_getElem h.mem i hi) (h.wf _ hx).bytes_len]

theorem popIntoUnchecked_spec (hA : A.Fits c) (env : Env (Val A.ty β)) {x : Val A.ty β} (h : v.Holds c (xs ++ [x])) :
    ∃ st, popIntoUnchecked c env v = .ok st (popped v xs) ∧ Offers env st (popped v xs) x (popped v xs) := by
  have hw := popped_holds h
  have hi : xs.length < (xs ++ [x]).length := by simp
  have h1 := h.elem_le xs.length hi
  have h3 := h.span
  have h4 := h.cap
  have h5 := h.capMax
  simp only [List.take_left, List.getElem_concat_length] at h1
  have hxm : x ∈ xs ++ [x] := by simp
  have hr := mkRef_elem hA h xs.length hi
  have hrd := read_elem h xs.length hi
  have hco := copyOut_eq h xs.length hi
  simp only [List.take_left, List.getElem_concat_length] at hr hrd hco
  unfold popIntoUnchecked
  rw [Exec.get_bind, Exec.debugAssert_bind (by rw [h.infos]; intro h0; have := congrArg List.length h0; simp at this),
    Exec.orUb_bind (by rw [h.infos]; exact infosFrom_getLast? _ _ _ _), Exec.modify_bind, Exec.get_bind]
  have e : ({ v with elems := v.elems.dropLast } : AVec A β) = popped v xs := by
    unfold popped; rw [h.infos, infosFrom_dropLast]; simp
  rw [e, byteLen_eq hw]
  dsimp only
  have es : totalWidth id xs + x.size - totalWidth id xs = x.size := by omega
  rw [Exec.orUb_bind (VS.uncheckedSub_eq (by omega) (by omega)), es, h.dec_eq hxm,
    Exec.require_bind (by show _ ≤ _; simp only [popped]; omega), Exec.orUb_bind (layout_elem hA (h.wf x hxm))]
  refine ⟨_, rfl, rfl, rfl, ?_, ?_, fun d => rfl⟩
  · show copyOut v.ptr _ _ (popped v xs) = _
    unfold copyOut at hco ⊢
    have : (popped v xs).heap = v.heap := rfl
    rw [this]
    revert hco
    cases v.heap.read v.ptr (totalWidth id xs) x.size with
    | none => intro h; simp at h
    | some bs => intro h; simp at h; simp [h]
  · exact dropInPlace_eq (v := popped v xs) hr hrd

/-! ## remove -/

/-- The vector after the gap left by element `k` has been closed. -/
def removed (v : AVec A β) (xs : List (Val A.ty β)) (k : Nat) (w : Nat) : AVec A β :=
  { v with
    elems := infosFrom A.enc id 0 (xs.eraseIdx k)
    heap := { v.heap with
      mem := moved v.heap.mem (totalWidth id (xs.take k) + w) (totalWidth id (xs.take k))
        (totalWidth id (xs.eraseIdx k) - totalWidth id (xs.take k)) } }

omit [Inhabited β] in
theorem take_le_eraseIdx (w : Nat → Nat) (xs : List (Val A.ty β)) (k : Nat) :
    totalWidth w (xs.take k) ≤ totalWidth w (xs.eraseIdx k) := by
  rw [List.eraseIdx_eq_take_drop_succ, totalWidth_append]; omega

theorem removed_holds (h : v.Holds c xs) (k : Nat) (hk : k < xs.length) :
    (removed v xs k xs[k].size).Holds c (xs.eraseIdx k) where
  wf y hy := h.wf y (List.mem_of_mem_eraseIdx hy)
  keeps y hy := h.keeps y (List.mem_of_mem_eraseIdx hy)
  infos := rfl
  recs := by have := h.recs; have := List.length_eraseIdx_le xs k; simp [removed]; omega
  cap := by
    have := UVec.totalWidth_eraseIdx (xs := xs) id k hk
    have := h.cap
    simp only [removed]
    simp only [id] at *
    omega
  capMax := h.capMax
  mem := memAt_remove (w := id) hk le_id h.bytes h.mem (by
    have h1 := UVec.totalWidth_eraseIdx (xs := xs) id k hk
    have h2 := take_le_eraseIdx id xs k
    rw [extent_id]
    simp only [id] at *
    omega)
  block := h.block.mem_eq rfl
  leaks := h.leaks

theorem removeIntoUnchecked_spec (hA : A.Fits c) (env : Env (Val A.ty β)) (h : v.Holds c xs) (k : Nat)
    (hk : k < xs.length) :
    ∃ st, removeIntoUnchecked c env k v = .ok st v ∧ Offers env st v xs[k] (removed v xs k xs[k].size) := by
  have h1 := h.elem_le k hk
  have h2 := h.capMax
  have h3 := h.span
  have h4 := h.cap
  have hxm : xs[k] ∈ xs := List.getElem_mem hk
  have hl := h.length
  unfold removeIntoUnchecked
  rw [Exec.get_bind, Exec.debugAssert_bind (by rw [h.len_eq]; exact hk)]
  have hinfo : v.elems[k]? = some ⟨A.enc xs[k].md, totalWidth id (xs.take k) + xs[k].size⟩ := by
    rw [h.infos, infosFrom_getElem?, List.getElem?_eq_getElem hk]; simp
  rw [Exec.orUb_bind hinfo, Exec.orUb_bind (startOffset_eq h k (by omega))]
  have es : totalWidth id (xs.take k) + xs[k].size - totalWidth id (xs.take k) = xs[k].size := by omega
  dsimp only
  rw [Exec.orUb_bind (VS.uncheckedSub_eq (by omega) (by omega)), es, h.dec_eq hxm,
    Exec.require_bind (by show _ ≤ _; omega), Exec.orUb_bind (layout_elem hA (h.wf _ hxm))]
  refine ⟨_, rfl, rfl, rfl, copyOut_eq h k hk, dropInPlace_eq (mkRef_elem hA h k hk) (read_elem h k hk), fun d => ?_⟩
  dsimp only
  rw [Exec.get_bind, Exec.assert_bind (by rw [hl]; exact hk), Exec.set_bind]
  have hlen : (v.elems.eraseIdx k).length = xs.length - 1 := by
    rw [List.length_eraseIdx, if_pos (by omega), hl]
  have htk : (v.elems.eraseIdx k).take k = infosFrom A.enc id 0 (xs.take k) := by
    rw [h.infos, infosFrom_split _ _ _ _ hk, List.take_left' (by simp; omega)]
  have hdr : (v.elems.eraseIdx k).drop k =
      infosFrom A.enc id (totalWidth id (xs.take k) + xs[k].size) (xs.drop (k + 1)) := by
    rw [h.infos, infosFrom_split _ _ _ _ hk, List.drop_left' (by simp; omega)]
    rfl
  have htd := totalWidth_take_drop id xs (k + 1)
  have hts := totalWidth_take_succ id xs k hk
  simp only [id] at hts
  rw [Exec.bind_ok (adjustFrom_eq (by simp only; omega) (by simp only [hdr]; exact unbumpInfos_eq le_id (by omega)))]
  simp only [htk, ← infosFrom_eraseIdx]
  have her := UVec.totalWidth_eraseIdx (xs := xs) id k hk
  have hte := take_le_eraseIdx id xs k
  simp only [id] at her
  rw [Exec.get_bind]
  unfold byteLen
  dsimp only
  rw [lastEnd_infosFrom, extent_id, Exec.orUb_bind (VS.uncheckedSub_eq (by omega) (by omega)),
    Exec.require_bind (by show _ ≤ _; omega), memmove_eq (by dsimp only; omega) (by dsimp only; omega)]
  rfl

end AVec
end Verif
