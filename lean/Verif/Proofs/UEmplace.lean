import Verif.Proofs.UOps
import Verif.Proofs.Run

set_option linter.unusedSectionVars false

/-!
# Dynamically aligned vectors: the emplacers `push_with` and `insert_with`
-/

namespace Verif
namespace UVec
variable {T : UTy} {β : Type} {G : Prop} {c : Cfg} {v : UVec T β} {xs : List (Val T β)} [Inhabited β]

/-- The vector has room for one more element of size `n` and alignment `al`. -/
structure Room (G : Prop) (c : Cfg) (v : UVec T β) (xs : List (Val T β)) (n al : Nat) : Prop where
  holds : v.Represents G c xs
  recs : xs.length < v.elemsCap
  bytes : totalWidth (padTo v.align) xs + padTo v.align n ≤ v.byteCap
  align : al ∣ v.align

theorem Reserved.dvd {env : Env (Val T β)} {v' : UVec T β} {add al : Nat} (h : v.Represents G c xs) (hr : Reserved G c env v v' xs add al)
    (hal : IsAlign c al) (hz : ZstOk v add al) : al ∣ v'.align ∧ v'.align = max v.align al := by
  have hm : v'.align = max v.align al := by
    rcases hr.align with h1 | ⟨h1, h2⟩
    · exact h1
    · have h3 := hr.mono
      have h4 := hr.room h
      have := hz (by omega) (by omega)
      rw [h2, Nat.max_eq_left this]
  refine ⟨?_, hm⟩
  rw [hm]
  exact hal.dvd_of_le (h.al.max hal) (Nat.le_max_right _ _)

theorem reserveForEmplace_meets (h : v.Represents G c xs) {env : Env (Val T β)} (hv : env.Valid) (he : G → env.Exact)
    {n al : Nat} (hal : IsAlign c al) (hz : ZstOk v n al) :
    (reserveForEmplace c env ⟨n, al⟩ v).Meets
      (fun _ v' => Room G c v' xs n al ∧ v'.drops = v.drops ∧ v'.align = max v.align al ∧ Grown env v v' xs n al)
      (fun v' => v'.Represents G c xs ∧ v'.drops = v.drops ∧ v'.byteCap = v.byteCap ∧ (env.Refuses (xs.length + 1) (request v xs n al) ∨ TooLarge c v xs 1 n al))
      (env.Refuses (xs.length + 1) (request v xs n al)) := by
  unfold reserveForEmplace
  rcases tryReserve_spec h env 1 with ⟨cap, h1, h2, h3, _⟩ | ⟨e, h1, h2, _⟩
  · rw [Exec.bind_ok h1]
    dsimp only
    have h' := h.withElemsCap (n := cap) (by omega)
    rcases tryReserveAdditionalBytesAlign_spec h' hv he hal n with ⟨v', h4, h5, _⟩ | ⟨e, h4, h5, _⟩
    · rw [Exec.bind_ok h4]
      have hd := h5.dvd h' hal hz
      have hg := h5.grows h'
      refine ⟨⟨h5.holds, ?_, ?_, hd.1⟩, h5.drops, hd.2, hg, h5.fresh, hd.2, h5.tight⟩
      · rw [h5.elemsCap]
        simp only
        omega
      · by_cases h0 : n = 0
        · subst h0
          rw [padTo_of_dvd h5.holds.al.pos (Nat.dvd_zero _)]
          exact h5.holds.cap
        · rcases h5.whole with h6 | h6
          · exact absurd (by rw [h6]) (h5.fresh (by omega))
          · exact h6 n (by have := h.cap; dsimp only; omega)
    · rw [Exec.bind_ok h4]
      rcases h5 with ⟨rfl, h6⟩ | ⟨rfl, hl⟩
      · exact ⟨h', rfl, rfl, .inr (.inr h6)⟩
      · exact .inr hl
  · rw [Exec.bind_ok h1]
    dsimp only
    rcases h2 with ⟨rfl, h3⟩ | hm
    · exact ⟨h, rfl, rfl, .inr (.inl h3)⟩
    · cases e with
      | capacityOverflow => exact ⟨h, rfl, rfl, .inl (.inl ⟨_, hm⟩)⟩
      | allocError => exact .inl ⟨_, hm⟩

/-! ## push_with -/

/-- Writing behind the last element does not change the contents. -/
theorem Represents.scribble (h : v.Represents G c xs) (bs : List β) :
    ({ v with heap := { v.heap with mem := written v.heap.mem (totalWidth (padTo v.align) xs) bs } } : UVec T β).Represents G c xs where
  wf := h.wf
  al := h.al
  elemAl := h.elemAl
  infos := h.infos
  recs := h.recs
  cap := h.cap
  capDvd := h.capDvd
  room := h.room
  mem := h.mem.frame h.le_w h.bytes fun i _ hi => by
    dsimp only at hi ⊢
    unfold written; rw [if_neg]; omega
  block := h.block.mem_eq rfl
  leaks := h.leaks

theorem pushWith_meets (h : v.Represents G c xs) {env : Env (Val T β)} (hv : env.Valid) (he : G → env.Exact)
    {md : T.Meta} (hmd : MetaOk c md) (hz : ZstOk v (T.sizeOf md) (T.alignOf md)) :
    (pushWith c env ⟨T.sizeOf md, T.alignOf md⟩ md v).Meets
      (fun p v1 => p.Places v1 (T.sizeOf md) (fun v' => v'.Represents G c xs ∧ v'.drops = v.drops)
        (fun bs v' => v'.Represents G c (xs ++ [⟨md, bs⟩]) ∧ v'.drops = v.drops ∧ v.align ≤ v'.align ∧ Grown env v v' xs (T.sizeOf md) (T.alignOf md)))
      (fun v' => v'.Represents G c xs ∧ v'.drops = v.drops ∧ v'.byteCap = v.byteCap ∧ (env.Refuses (xs.length + 1) (request v xs (T.sizeOf md) (T.alignOf md)) ∨ TooLarge c v xs 1 (T.sizeOf md) (T.alignOf md)))
      (env.Refuses (xs.length + 1) (request v xs (T.sizeOf md) (T.alignOf md))) := by
  have hsz := hmd.size_le
  unfold pushWith
  rw [Exec.orUb_bind (VSU.newUnchecked_eq (by dsimp only; omega))]
  refine (reserveForEmplace_meets h hv he hmd.align_pow hz).bind ?_
  rintro _ v1 ⟨hr, hd, ha, hc⟩
  have h1 := hr.holds
  have hb := hr.bytes
  have hpad := h1.le_w (T.sizeOf md)
  have hcm := h1.capMax
  have hsp := h1.span
  rw [Exec.get_bind, Exec.orUb_bind (alignedByteLen_eq h1), Exec.require_bind (by show _ ≤ _; omega)]
  refine ⟨_, _, _, rfl, ?_, ?_⟩
  · intro bs hbs
    refine ⟨_, _, ?_, rfl, h1.scribble bs, hd⟩
    rw [Exec.require_bind hbs]
    exact memwrite_eq (by omega)
  · intro bs hbs
    refine ⟨{ v1 with heap := { v1.heap with mem := written v1.heap.mem (totalWidth (padTo v1.align) xs) bs } }, pushed v1 xs ⟨md, bs⟩, ?_, ?_, ?_, hd, ?_, hc.le, hc.fresh, hc.align, hc.tight⟩
    · rw [Exec.require_bind (by dsimp only; omega)]
      exact memwrite_eq (by omega)
    · have hl := h1.length
      have hrec := hr.recs
      rw [Exec.orUb_bind (VSU.uncheckedAdd_eq (by dsimp only; omega)), infoPush_eq (by dsimp only; omega)]
      unfold pushed
      rw [infosFrom_concat, h1.infos]
      simp [Val.size]
    · exact pushed_holds h1 (hmd.wf hbs) hr.align hr.recs hb
    · show v.align ≤ v1.align; omega

/-! ## insert_with -/

omit [Inhabited β] in
theorem insertOk_le {xs : List (Val T β)} {i a : Nat} (ha : 0 < a) (hok : InsertOk xs i a) :
    totalWidth (padTo a) (xs.take i) ≤ extent (padTo a) xs := by
  by_cases hi : i < xs.length
  · have hne : xs.drop i ≠ [] := by
      intro h0; have := congrArg List.length h0; simp at this; omega
    have := extent_append (padTo a) (xs.take i) (xs.drop i) hne
    rw [List.take_append_drop] at this
    omega
  · rw [List.take_of_length_le (by omega)]
    rcases hok with h1 | h1 | h1
    · omega
    · subst h1; simp
    · rcases List.eq_nil_or_concat xs with rfl | ⟨ys, y, rfl⟩
      · simp
      · rw [List.concat_eq_append] at h1 ⊢
        rw [totalWidth_append, extent_concat]
        have := padTo_of_dvd ha (h1 y (by simp))
        simp [this]

/-- The vector after `x` has been inserted at `k`. -/
def inserted (v : UVec T β) (xs : List (Val T β)) (k : Nat) (x : Val T β) : UVec T β :=
  { v with
    elems := infosFrom id (padTo v.align) 0 (xs.take k ++ x :: xs.drop k)
    heap := { v.heap with
      mem := written (moved v.heap.mem (totalWidth (padTo v.align) (xs.take k))
        (totalWidth (padTo v.align) (xs.take k) + padTo v.align x.size)
        (extent (padTo v.align) xs - totalWidth (padTo v.align) (xs.take k)))
        (totalWidth (padTo v.align) (xs.take k)) x.bytes } }

theorem inserted_holds {x : Val T β} (hx : x.WF c) (hr : Room G c v xs x.size x.align) (k : Nat) :
    (inserted v xs k x).Represents G c (xs.take k ++ x :: xs.drop k) where
  wf y hy := by
    rcases List.mem_append.mp hy with hy | hy
    · exact hr.holds.wf y (List.mem_of_mem_take hy)
    · rcases List.mem_cons.mp hy with rfl | hy
      · exact hx
      · exact hr.holds.wf y (List.mem_of_mem_drop hy)
  al := hr.holds.al
  elemAl y hy := by
    rcases List.mem_append.mp hy with hy | hy
    · exact hr.holds.elemAl y (List.mem_of_mem_take hy)
    · rcases List.mem_cons.mp hy with rfl | hy
      · exact hr.align
      · exact hr.holds.elemAl y (List.mem_of_mem_drop hy)
  infos := rfl
  recs := by
    have := hr.recs
    simp only [inserted, List.length_append, List.length_cons, List.length_take, List.length_drop]
    omega
  cap := by
    have h1 := hr.bytes
    have h2 := totalWidth_take_drop (padTo v.align) xs k
    simp only [inserted, totalWidth_append, totalWidth_cons]
    omega
  capDvd := hr.holds.capDvd
  room := hr.holds.room
  mem := memAt_insert hr.holds.le_w hr.holds.bytes hx.bytes_len hr.holds.mem (Nat.le_refl _)
  block := hr.holds.block.mem_eq rfl
  leaks := hr.holds.leaks

/-- The record updates of an insertion. -/
theorem insertRecords_eq {w : UVec T β} {x : Val T β} {n al : Nat} (hr : Room G c v xs n al) (hn : x.size = n) (k : Nat)
    (hk : k ≤ xs.length) (hw : w.elems = v.elems) (hwc : w.elemsCap = v.elemsCap) :
    (do adjustFrom k (bumpInfos c (padTo v.align n))
        let e ← Exec.orUb (VSU.uncheckedAdd c (totalWidth (padTo v.align) (xs.take k)) n)
        infoInsert k ⟨x.md, e⟩ : Exec (UVec T β) Unit) w =
      .ok () { w with elems := infosFrom id (padTo v.align) 0 (xs.take k ++ x :: xs.drop k) } := by
  have h := hr.holds
  have hl := h.length
  have hb := hr.bytes
  have hcm := h.capMax
  have hpad := h.le_w n
  have htd := totalWidth_take_drop (padTo v.align) xs k
  have hrec := hr.recs
  have hdr : w.elems.drop k = infosFrom id (padTo v.align) (totalWidth (padTo v.align) (xs.take k)) (xs.drop k) := by
    rw [hw, h.infos, infosFrom_drop]; simp
  have htk : w.elems.take k = infosFrom id (padTo v.align) 0 (xs.take k) := by
    rw [hw, h.infos, infosFrom_take]
  rw [Exec.bind_ok (adjustFrom_eq (by rw [hw]; omega) (by rw [hdr]; exact bumpInfos_eq h.le_w (by omega))), htk,
    Exec.orUb_bind (VSU.uncheckedAdd_eq (by omega))]
  have hlt : (infosFrom (R := T.Meta) id (padTo v.align) 0 (xs.take k)).length = k := by simp; omega
  rw [infoInsert_eq (by simp only [List.length_append, infosFrom_length, List.length_take, List.length_drop]; omega)
    (by simp only [List.length_append, infosFrom_length, List.length_take, List.length_drop]; omega)]
  simp only
  rw [List.take_left' hlt, List.drop_left' hlt, infosFrom_insert, hn]
  rfl

theorem insertWith_meets (h : v.Represents G c xs) {env : Env (Val T β)} (hv : env.Valid) (he : G → env.Exact)
    {md : T.Meta} (hmd : MetaOk c md) (hz : ZstOk v (T.sizeOf md) (T.alignOf md)) (k : Nat) (hk : k ≤ xs.length)
    (hok : InsertOk xs k (max v.align (T.alignOf md))) :
    (insertWithUnchecked c env k ⟨T.sizeOf md, T.alignOf md⟩ md v).Meets
      (fun p v1 => p.Places v1 (T.sizeOf md) (fun v' => v'.Represents G c xs ∧ v'.drops = v.drops)
        (fun bs v' => v'.Represents G c (xs.take k ++ ⟨md, bs⟩ :: xs.drop k) ∧ v'.drops = v.drops ∧ Grown env v v' xs (T.sizeOf md) (T.alignOf md)))
      (fun v' => v'.Represents G c xs ∧ v'.drops = v.drops ∧ v'.byteCap = v.byteCap ∧ (env.Refuses (xs.length + 1) (request v xs (T.sizeOf md) (T.alignOf md)) ∨ TooLarge c v xs 1 (T.sizeOf md) (T.alignOf md)))
      (env.Refuses (xs.length + 1) (request v xs (T.sizeOf md) (T.alignOf md))) := by
  have hsz := hmd.size_le
  unfold insertWithUnchecked
  rw [Exec.orUb_bind (VSU.newUnchecked_eq (by dsimp only; omega))]
  refine (reserveForEmplace_meets h hv he hmd.align_pow hz).bind ?_
  rintro _ v1 ⟨hr, hd, hal, hc⟩
  have h1 := hr.holds
  have hb := hr.bytes
  have hcm := h1.capMax
  have hsp := h1.span
  rw [← hal] at hok
  have hle := insertOk_le h1.al.pos hok
  have hex := extent_le (padTo v1.align) h1.le_w xs
  have htk := totalWidth_take_le (padTo v1.align) xs k
  dsimp only
  have hpw := le_padTo h1.al.pos (T.sizeOf md)
  rw [Exec.get_bind, Exec.orUb_bind (VSU.uncheckedPadTo_eq h1.al (by omega) (by omega)),
    Exec.orUb_bind (startOffset_eq h1 k hk), Exec.require_bind (by show _ ≤ _; omega),
    unalignedByteLen_eq h1, Exec.orUb_bind (VSU.uncheckedSub_eq hle (by omega)),
    Exec.require_bind (by show _ ≤ _; omega), Exec.bind_ok (memmove_eq (by omega) (by omega))]
  let w1 : UVec T β := { v1 with heap := { v1.heap with mem := moved v1.heap.mem (totalWidth (padTo v1.align) (xs.take k)) (totalWidth (padTo v1.align) (xs.take k) + padTo v1.align (T.sizeOf md)) (extent (padTo v1.align) xs - totalWidth (padTo v1.align) (xs.take k)) } }
  have hsp1 : w1.heap.span w1.ptr = v1.heap.span v1.ptr := rfl
  refine ⟨_, _, _, rfl, ?_, ?_⟩
  · intro bs hbs
    let w2 : UVec T β := { w1 with heap := { w1.heap with mem := written w1.heap.mem (totalWidth (padTo v1.align) (xs.take k)) bs } }
    have hsp2 : w2.heap.span w2.ptr = v1.heap.span v1.ptr := rfl
    refine ⟨w2, _, ?_, memmove_eq (v := w2) ?_ ?_, ?_, hd⟩
    · rw [Exec.require_bind hbs]
      exact memwrite_eq (v := w1) (by rw [show w1.heap.span v1.ptr = v1.heap.span v1.ptr from rfl]; omega)
    · rw [show w2.heap.span v1.ptr = v1.heap.span v1.ptr from rfl]; omega
    · rw [show w2.heap.span v1.ptr = v1.heap.span v1.ptr from rfl]; omega
    · exact ⟨h1.wf, h1.al, h1.elemAl, h1.infos, h1.recs, h1.cap, h1.capDvd, h1.room,
        memAt_insert_undo h1.le_w h1.bytes (by omega) h1.mem (Nat.le_refl _), h1.block.mem_eq rfl, h1.leaks⟩
  · intro bs hbs
    let w2 : UVec T β := { w1 with heap := { w1.heap with mem := written w1.heap.mem (totalWidth (padTo v1.align) (xs.take k)) bs } }
    refine ⟨w2, inserted v1 xs k ⟨md, bs⟩, ?_, ?_, inserted_holds (hmd.wf hbs) hr k, hd, hc.le, hc.fresh, hc.align, hc.tight⟩
    · rw [Exec.require_bind (by omega)]
      exact memwrite_eq (v := w1) (by rw [show w1.heap.span v1.ptr = v1.heap.span v1.ptr from rfl]; omega)
    · exact insertRecords_eq (x := ⟨md, bs⟩) (w := w2) hr rfl k hk rfl rfl

end UVec
end Verif
