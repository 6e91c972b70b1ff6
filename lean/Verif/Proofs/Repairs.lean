import Verif.Model.Repairs
import Verif.Proofs.IterExact
import Verif.Proofs.FromSized
import Verif.Proofs.UImpl
import Verif.Proofs.AImpl

set_option linter.unusedSectionVars false

/-!
# Lemmas about the corrected functions of `Model/Repairs.lean`
-/

namespace Verif

namespace ICall

/-- Without wrong references the faults do not matter. -/
theorem outputs_same {R : Type} (refs : Nat → Option R) (is : List (Option Nat)) (fs : List Bool) (h : is.length = fs.length) :
    outputs refs refs is fs = is.map (·.bind refs) := by
  induction is generalizing fs with
  | nil => rfl
  | cons o is ih =>
    cases fs with
    | nil => simp at h
    | cons f fs =>
      have := ih fs (by simpa using h)
      unfold outputs at this ⊢
      rw [List.zipWith_cons_cons, this, List.map_cons, ite_self]

end ICall

namespace UVec
variable {T : UTy} {β : Type} [Inhabited β] {G : Prop} {c : Cfg} {v : UVec T β} {xs : List (Val T β)}

/-- Apart from the sole element left, `next_back` is as before. -/
theorem nextBackRepaired_eq (h : Heap β) {it : UIter T} (hl : it.infos.length ≠ 1) : it.nextBackRepaired c h = it.nextBack c h := by
  unfold UIter.nextBackRepaired UIter.nextBack
  cases he : it.infos.getLast? with
  | none => rfl
  | some e =>
    dsimp only
    cases hd : it.infos.dropLast.getLast? with
    | none =>
      exfalso
      rw [List.getLast?_eq_none_iff] at hd
      have := congrArg List.length hd
      rw [List.length_dropLast, List.length_nil] at this
      have : it.infos = [] := List.length_eq_zero_iff.1 (by omega)
      rw [this] at he; simp at he
    | some p => rfl

/-- Apart from `nth(0)`, `nth` is as before. -/
theorem nthRepaired_succ (h : Heap β) (it : UIter T) (n : Nat) : it.nthRepaired c h (n + 1) = it.nth c h (n + 1) := by
  unfold UIter.nthRepaired UIter.nth UIter.sliceNth
  dsimp only
  cases it.infos.drop n with
  | nil => rfl
  | cons e rest => rfl

theorem iter_repaired (h : v.Represents G c xs) :
    ICall.WorksAll (ICall.unalignedRepaired c v.heap) (Covers v xs) (fun i => getUnchecked c v i) (fun i => getUnchecked c v i) := by
  have w := iter_works h
  have zero : ∀ {it i j}, Covers v xs it i j → i < j →
      ∃ it', it.nthRepaired c v.heap 0 = some (getUnchecked c v i, it') ∧ Covers v xs it' (i + 1) j := by
    intro it i j hc hij
    obtain ⟨it', h1, h2⟩ := w.next_lt hc hij
    refine ⟨it', ?_, h2⟩
    rw [← h1]
    show _ = it.next c v.heap
    unfold UIter.nthRepaired UIter.next
    rw [hc.cons h hij]
    rfl
  have sole : ∀ {it i}, Covers v xs it i (i + 1) →
      ∃ it', it.nextBackRepaired c v.heap = some (getUnchecked c v i, it') ∧ Covers v xs it' i i := by
    intro it i hc
    have hi : i < xs.length := by have := hc.le; omega
    refine ⟨{ it with infos := [] }, ?_, ⟨by omega, ?_, hc.ptr, hc.align, fun _ => by omega⟩⟩
    · unfold UIter.nextBackRepaired
      have h1 : it.infos = [rec_ v xs i hi] := by
        rw [hc.cons h (by omega), List.drop_eq_nil_of_le (by simp; omega)]
      simp only [h1, List.getLast?_singleton, List.dropLast_singleton, List.getLast?_nil, rec_, hc.ptr, hc.start (by omega : i < i + 1),
        sub_at h hi, ref_at h hi, get_at h hi, Option.bind_eq_bind, Option.bind_some]
      rfl
    · rw [List.drop_eq_nil_of_le (by simp; omega)]
  have back : ∀ {it i j}, Covers v xs it i j → j ≠ i + 1 → it.nextBackRepaired c v.heap = it.nextBack c v.heap := by
    intro it i j hc hij
    refine nextBackRepaired_eq _ ?_
    have := hc.len h
    unfold UIter.len at this
    omega
  exact {
    next_lt := fun hc hij => w.next_lt hc hij
    next_ge := fun hc hij => w.next_ge hc hij
    back_lt := fun {it i j} hc hij _ => by
      by_cases h1 : j = i + 1
      · subst h1
        obtain ⟨it', h2, h3⟩ := sole hc
        exact ⟨it', h2, h3⟩
      · obtain ⟨it', h2, h3⟩ := w.back_lt hc hij (.inr (by omega))
        exact ⟨it', (back hc h1).trans h2, h3⟩
    back_ge := fun {it i j} hc hij => (back hc (by omega)).trans (w.back_ge hc hij)
    nth_lt := fun {it i j n} hc hij _ => by
      cases n with
      | zero => exact zero hc hij
      | succ n =>
        obtain ⟨it', h2, h3⟩ := w.nth_lt hc hij (.inr (by omega))
        exact ⟨it', (nthRepaired_succ _ _ _).trans h2, h3⟩
    nth_ge := fun {it i j n} hc hij => by
      cases n with
      | zero =>
        obtain ⟨it', h2, h3⟩ := w.nth_ge hc hij
        refine ⟨it', Eq.trans ?_ h2, h3⟩
        show it.nthRepaired c v.heap 0 = it.nth c v.heap 0
        unfold UIter.nthRepaired UIter.nth
        rw [hc.nil h (by omega)]
        rfl
      | succ n =>
        obtain ⟨it', h2, h3⟩ := w.nth_ge hc hij
        exact ⟨it', (nthRepaired_succ _ _ _).trans h2, h3⟩
    back_iter := fun _ _ => rfl
    some_ref := w.some_ref
    back_sole := sole
    nth_zero := zero
    some_wrong := w.some_ref }

theorem insertRepaired_eq {x : Val T β} (hx : x.WF c) (hr : Room G c v xs x.size x.align) {k : Nat} (hk : k ≤ xs.length) :
    insertRepaired c k x v = .ok () (inserted v xs k x) := by
  have h1 := hr.holds
  have hb := hr.bytes
  have hcm := h1.capMax
  have hsp := h1.span
  have hrec := hr.recs
  have hl := h1.length
  have hex := extent_le (padTo v.align) h1.le_w xs
  have htk := totalWidth_take_le (padTo v.align) xs k
  have hpw := le_padTo h1.al.pos x.size
  unfold insertRepaired
  rw [Exec.get_bind, Exec.debugAssert_bind (by unfold len; omega), Exec.debugAssert_bind (by unfold len; omega),
    Exec.orUb_bind (VSU.uncheckedPadTo_eq h1.al (by omega) (by omega)), Exec.orUb_bind (alignedByteLen_eq h1),
    Exec.debugAssert_bind (by omega), Exec.debugAssert_bind (Nat.le_of_dvd h1.al.pos hr.align),
    Exec.orUb_bind (startOffset_eq h1 k hk), unalignedByteLen_eq h1,
    Exec.require_bind (by constructor <;> show _ ≤ _ <;> omega), Exec.bind_ok (memmove_eq (by omega) (by omega))]
  let w1 : UVec T β := { v with heap := { v.heap with mem := moved v.heap.mem (totalWidth (padTo v.align) (xs.take k)) (totalWidth (padTo v.align) (xs.take k) + padTo v.align x.size) (extent (padTo v.align) xs - totalWidth (padTo v.align) (xs.take k)) } }
  let w2 : UVec T β := { w1 with heap := { w1.heap with mem := written w1.heap.mem (totalWidth (padTo v.align) (xs.take k)) x.bytes } }
  have hw : memwrite v.ptr (totalWidth (padTo v.align) (xs.take k)) x.bytes w1 = .ok () w2 :=
    memwrite_eq (v := w1) (by rw [show w1.heap.span v.ptr = v.heap.span v.ptr from rfl, hx.bytes_len]; omega)
  rw [Exec.bind_ok hw]
  exact insertRecords_eq (w := w2) hr rfl k hk rfl rfl

/-- `insertWith_meets` without its guard on the elements in front. -/
theorem insertWithRepaired_meets (h : v.Represents G c xs) {env : Env (Val T β)} (hv : env.Valid) (he : G → env.Exact)
    {md : T.Meta} (hmd : MetaOk c md) (hz : ZstOk v (T.sizeOf md) (T.alignOf md)) (k : Nat) (hk : k ≤ xs.length) :
    (insertWithRepaired c env k ⟨T.sizeOf md, T.alignOf md⟩ md v).Meets
      (fun p v1 => p.Places v1 (T.sizeOf md) (fun v' => v'.Represents G c xs ∧ v'.drops = v.drops)
        (fun bs v' => v'.Represents G c (xs.take k ++ ⟨md, bs⟩ :: xs.drop k) ∧ v'.drops = v.drops ∧ Grown env v v' xs (T.sizeOf md) (T.alignOf md)))
      (fun v' => v'.Represents G c xs ∧ v'.drops = v.drops ∧ v'.byteCap = v.byteCap ∧ (env.Refuses (xs.length + 1) (request v xs (T.sizeOf md) (T.alignOf md)) ∨ TooLarge c v xs 1 (T.sizeOf md) (T.alignOf md)))
      (env.Refuses (xs.length + 1) (request v xs (T.sizeOf md) (T.alignOf md))) := by
  have hsz := hmd.size_le
  unfold insertWithRepaired
  rw [Exec.orUb_bind (VSU.newUnchecked_eq (by dsimp only; omega))]
  refine (reserveForEmplace_meets h hv he hmd.align_pow hz).bind ?_
  rintro _ v1 ⟨hr, hd, hal, hc⟩
  have h1 := hr.holds
  have hb := hr.bytes
  have hcm := h1.capMax
  have hsp := h1.span
  have hex := extent_le (padTo v1.align) h1.le_w xs
  have htk := totalWidth_take_le (padTo v1.align) xs k
  dsimp only
  have hpw := le_padTo h1.al.pos (T.sizeOf md)
  rw [Exec.get_bind, Exec.orUb_bind (VSU.uncheckedPadTo_eq h1.al (by omega) (by omega)),
    Exec.orUb_bind (startOffset_eq h1 k hk), Exec.require_bind (by show _ ≤ _; omega),
    unalignedByteLen_eq h1,
    Exec.require_bind (by show _ ≤ _; omega), Exec.bind_ok (memmove_eq (by omega) (by omega))]
  let w1 : UVec T β := { v1 with heap := { v1.heap with mem := moved v1.heap.mem (totalWidth (padTo v1.align) (xs.take k)) (totalWidth (padTo v1.align) (xs.take k) + padTo v1.align (T.sizeOf md)) (extent (padTo v1.align) xs - totalWidth (padTo v1.align) (xs.take k)) } }
  have hsp1 : w1.heap.span w1.ptr = v1.heap.span v1.ptr := rfl
  refine ⟨_, _, _, rfl, ?_, ?_⟩
  · intro bs hbs
    let w2 : UVec T β := { w1 with heap := { w1.heap with mem := written w1.heap.mem (totalWidth (padTo v1.align) (xs.take k)) bs } }
    have hsp2 : w2.heap.span w2.ptr = v1.heap.span v1.ptr := rfl
    refine ⟨w2, _, ?_, memmove_eq (v := w2) ?_ ?_, ?_, hd⟩
    · rw [Exec.require_bind hbs]
      exact memwrite_eq (v := w1) (by rw [show w1.heap.span v1.ptr = v1.heap.span v1.ptr from rfl]; omega)
    · rw [show w2.heap.span v1.ptr = v1.heap.span v1.ptr from rfl]; omega
    · rw [show w2.heap.span v1.ptr = v1.heap.span v1.ptr from rfl]; omega
    · exact ⟨h1.wf, h1.al, h1.elemAl, h1.infos, h1.recs, h1.cap, h1.capDvd, h1.room,
        memAt_insert_undo h1.le_w h1.bytes (by omega) h1.mem (Nat.le_refl _), h1.block.mem_eq rfl, h1.leaks⟩
  · intro bs hbs
    let w2 : UVec T β := { w1 with heap := { w1.heap with mem := written w1.heap.mem (totalWidth (padTo v1.align) (xs.take k)) bs } }
    refine ⟨w2, inserted v1 xs k ⟨md, bs⟩, ?_, ?_, inserted_holds (hmd.wf hbs) hr k, hd, hc.le, hc.fresh, hc.align, hc.tight⟩
    · rw [Exec.require_bind (by omega)]
      exact memwrite_eq (v := w1) (by rw [show w1.heap.span v1.ptr = v1.heap.span v1.ptr from rfl]; omega)
    · exact insertRecords_eq (x := ⟨md, bs⟩) (w := w2) hr rfl k hk rfl rfl

/-- `removed_holds` without its guard: if no byte is left to move, the removed element was the last one. -/
theorem removed_holds_all (h : v.Represents G c xs) (k : Nat) (hk : k < xs.length) :
    (removed v xs k (padTo v.align xs[k].size)).Represents G c (xs.eraseIdx k) := by
  by_cases hl : k + 1 < xs.length
  · exact removed_holds h k hk (removeOk_le h k hk (.inl hl))
  refine ⟨fun y hy => h.wf y (List.mem_of_mem_eraseIdx hy), h.al, fun y hy => h.elemAl y (List.mem_of_mem_eraseIdx hy), rfl, ?_, ?_,
    h.capDvd, h.room, memAt_remove hk h.le_w h.bytes h.mem ?_, h.block.mem_eq rfl, h.leaks⟩
  · have := h.recs; have := List.length_eraseIdx_le xs k; simp [removed]; omega
  · have := totalWidth_eraseIdx (padTo v.align) k hk
    have := h.cap
    simp only [removed]
    omega
  · have hk' : k + 1 = xs.length := by omega
    have hxs : xs = xs.take k ++ [xs[k]] := by
      rw [List.take_append_getElem hk, hk', List.take_length]
    have he : extent (padTo v.align) xs = totalWidth (padTo v.align) (xs.take k) + xs[k].size := by
      conv => lhs; rw [hxs]
      exact extent_concat _ _ _
    have := h.le_w xs[k].size
    omega

theorem removeRepaired_spec (env : Env (Val T β)) (h : v.Represents G c xs) (k : Nat) (hk : k < xs.length) :
    ∃ st, removeRepaired c env k v = .ok st v ∧
      Offers env st v xs[k] (removed v xs k (padTo v.align xs[k].size)) := by
  have h1 := h.elem_le k hk
  have h2 := h.total_le
  have h3 := h.span
  have h4 := h.cap
  have h5 := totalWidth_take_succ (padTo v.align) xs k hk
  have h6 := totalWidth_take_le (padTo v.align) xs (k + 1)
  have hxm : xs[k] ∈ xs := List.getElem_mem hk
  have hl := h.length
  unfold removeRepaired
  rw [Exec.get_bind, Exec.debugAssert_bind (by rw [h.len_eq]; exact hk)]
  have hinfo : v.elems[k]? = some ⟨xs[k].md, totalWidth (padTo v.align) (xs.take k) + xs[k].size⟩ := by
    rw [h.infos, infosFrom_getElem?, List.getElem?_eq_getElem hk]; simp
  rw [Exec.orUb_bind hinfo, Exec.orUb_bind (startOffset_eq h k (by omega))]
  have es : totalWidth (padTo v.align) (xs.take k) + xs[k].size - totalWidth (padTo v.align) (xs.take k) = xs[k].size := by
    omega
  dsimp only
  rw [Exec.orUb_bind (VSU.uncheckedSub_eq (by omega) (by omega)), es,
    Exec.orUb_bind (VSU.uncheckedPadTo_eq h.al (by omega) (by omega)),
    Exec.require_bind (by show _ ≤ _; omega), Exec.orUb_bind (mkRef_elem h k hk)]
  erw [Exec.orUb_bind (layout_elem (h.wf _ hxm))]
  refine ⟨_, rfl, rfl, rfl, copyOut_eq h k hk, dropInPlace_eq (mkRef_elem h k hk) (read_elem h k hk), fun d => ?_⟩
  have hd : ({ v with drops := d } : UVec T β).Represents G c xs :=
    ⟨h.wf, h.al, h.elemAl, h.infos, h.recs, h.cap, h.capDvd, h.room, h.mem, h.block, h.leaks⟩
  dsimp only
  rw [Exec.get_bind, Exec.assert_bind (by rw [hl]; exact hk), Exec.set_bind]
  have hlen : (v.elems.eraseIdx k).length = xs.length - 1 := by
    rw [List.length_eraseIdx, if_pos (by omega), hl]
  have htk : (v.elems.eraseIdx k).take k = infosFrom id (padTo v.align) 0 (xs.take k) := by
    rw [h.infos, infosFrom_split _ _ _ _ hk, List.take_left' (by simp; omega)]
  have hdr : (v.elems.eraseIdx k).drop k =
      infosFrom id (padTo v.align) (totalWidth (padTo v.align) (xs.take k) + padTo v.align xs[k].size) (xs.drop (k + 1)) := by
    rw [h.infos, infosFrom_split _ _ _ _ hk, List.drop_left' (by simp; omega)]
  have htd := totalWidth_take_drop (padTo v.align) xs (k + 1)
  rw [Exec.bind_ok (adjustFrom_eq (by simp only; omega) (by simp only [hdr]; exact unbumpInfos_eq h.le_w (by omega)))]
  simp only [htk, ← infosFrom_eraseIdx]
  have hex := extent_le (padTo v.align) h.le_w (xs.eraseIdx k)
  have her := totalWidth_eraseIdx (padTo v.align) k hk
  rw [Exec.get_bind]
  unfold unalignedByteLen
  dsimp only
  rw [lastEnd_infosFrom,
    Exec.require_bind (by show _ ≤ _; omega), memmove_eq (by dsimp only; omega) (by dsimp only; omega)]
  rfl

/-- The contract, with the changed `insert`, `insert_with` and `remove_into`. -/
def implRepaired (G : Prop) (c : Cfg) (T : UTy) : Impl c (unalignedRepairedP (β := β) c T) :=
  { impl (β := β) G c T with
    insPlain := fun _ _ _ => True
    insGuard := fun _ _ _ _ => True
    remGuard := fun _ _ _ => True
    insertWith := fun {_ _} h {env} he {md} hmd hz {k} hk _ => (insertWithRepaired_meets h he.1 he.2 hmd hz k hk).mono
      (fun _ _ h => h.mono (fun _ h => h) (fun _ _ h => ⟨h.1, h.2.1⟩))
      (fun _ h => ⟨h.1, h.2.1, h.2.2.2⟩) (fun h => h)
    remove := fun h env k hk _ => by
      obtain ⟨st, h1, h2⟩ := removeRepaired_spec env h k hk
      exact ⟨st, _, h1, h2.gives h rfl (removed_holds_all h k hk)⟩
    insert := fun h x hx hf hc hw hr k hk _ => by
      have hr : Room G c _ _ x.size x.align := ⟨h, hc, h.room_of hr hw, IsAlign.dvd_of_le hx.align_pow h.al hf⟩
      exact ⟨_, insertRepaired_eq hx hr hk, inserted_holds hx hr k, rfl, rfl, rfl, rfl, rfl⟩ }

end UVec

namespace AVec
variable {A : ATy} {β : Type} [Inhabited β] {c : Cfg} {v : AVec A β} {xs : List (Val A.ty β)}

theorem nextBackRepaired_eq (h : Heap β) {it : AIter A} (hl : it.infos.length ≠ 1) : it.nextBackRepaired c h = it.nextBack c h := by
  unfold AIter.nextBackRepaired AIter.nextBack
  cases he : it.infos.getLast? with
  | none => rfl
  | some e =>
    dsimp only
    cases hd : it.infos.dropLast.getLast? with
    | none =>
      exfalso
      rw [List.getLast?_eq_none_iff] at hd
      have := congrArg List.length hd
      rw [List.length_dropLast, List.length_nil] at this
      have : it.infos = [] := List.length_eq_zero_iff.1 (by omega)
      rw [this] at he; simp at he
    | some p => rfl

theorem nthRepaired_succ (h : Heap β) (it : AIter A) (n : Nat) : it.nthRepaired c h (n + 1) = it.nth c h (n + 1) := by
  unfold AIter.nthRepaired AIter.nth UIter.sliceNth
  dsimp only
  cases it.infos.drop n with
  | nil => rfl
  | cons e rest => rfl

theorem iter_repaired (hA : A.Fits c) (h : v.Holds c xs) :
    ICall.WorksAll (ICall.alignedRepaired c v.heap) (Covers v xs) (fun i => getUnchecked c v i) (fun i => getUnchecked c v i) := by
  have w := iter_works hA h
  have zero : ∀ {it i j}, Covers v xs it i j → i < j →
      ∃ it', it.nthRepaired c v.heap 0 = some (getUnchecked c v i, it') ∧ Covers v xs it' (i + 1) j := by
    intro it i j hc hij
    obtain ⟨it', h1, h2⟩ := w.next_lt hc hij
    refine ⟨it', ?_, h2⟩
    rw [← h1]
    show _ = it.next c v.heap
    unfold AIter.nthRepaired AIter.next
    rw [hc.cons h hij]
  have sole : ∀ {it i}, Covers v xs it i (i + 1) →
      ∃ it', it.nextBackRepaired c v.heap = some (getUnchecked c v i, it') ∧ Covers v xs it' i i := by
    intro it i hc
    have hi : i < xs.length := by have := hc.le; omega
    refine ⟨{ it with infos := [] }, ?_, ⟨by omega, ?_, hc.ptr, fun _ => by omega⟩⟩
    · unfold AIter.nextBackRepaired
      have h1 : it.infos = [rec_ v xs i hi] := by
        rw [hc.cons h (by omega), List.drop_eq_nil_of_le (by simp; omega)]
      simp only [h1, List.getLast?_singleton, List.dropLast_singleton, List.getLast?_nil, rec_, hc.ptr, hc.start (by omega : i < i + 1),
        sub_at h hi, h.dec_eq (List.getElem_mem _), ref_at hA h hi, get_at hA h hi, Option.bind_eq_bind, Option.bind_some]
      rfl
    · rw [List.drop_eq_nil_of_le (by simp; omega)]
  have back : ∀ {it i j}, Covers v xs it i j → j ≠ i + 1 → it.nextBackRepaired c v.heap = it.nextBack c v.heap := by
    intro it i j hc hij
    refine nextBackRepaired_eq _ ?_
    have := hc.len h
    unfold AIter.len at this
    omega
  exact {
    next_lt := fun hc hij => w.next_lt hc hij
    next_ge := fun hc hij => w.next_ge hc hij
    back_lt := fun {it i j} hc hij _ => by
      by_cases h1 : j = i + 1
      · subst h1
        obtain ⟨it', h2, h3⟩ := sole hc
        exact ⟨it', h2, h3⟩
      · obtain ⟨it', h2, h3⟩ := w.back_lt hc hij (.inr (by omega))
        exact ⟨it', (back hc h1).trans h2, h3⟩
    back_ge := fun {it i j} hc hij => (back hc (by omega)).trans (w.back_ge hc hij)
    nth_lt := fun {it i j n} hc hij _ => by
      cases n with
      | zero => exact zero hc hij
      | succ n =>
        obtain ⟨it', h2, h3⟩ := w.nth_lt hc hij (.inr (by omega))
        exact ⟨it', (nthRepaired_succ _ _ _).trans h2, h3⟩
    nth_ge := fun {it i j n} hc hij => by
      cases n with
      | zero =>
        obtain ⟨it', h2, h3⟩ := w.nth_ge hc hij
        refine ⟨it', Eq.trans ?_ h2, h3⟩
        show it.nthRepaired c v.heap 0 = it.nth c v.heap 0
        unfold AIter.nthRepaired AIter.nth
        rw [hc.nil h (by omega)]
      | succ n =>
        obtain ⟨it', h2, h3⟩ := w.nth_ge hc hij
        exact ⟨it', (nthRepaired_succ _ _ _).trans h2, h3⟩
    back_iter := fun _ _ => rfl
    some_ref := w.some_ref
    back_sole := sole
    nth_zero := zero
    some_wrong := w.some_ref }

theorem insertRepaired_eq {x : Val A.ty β} (hx : x.WF c) (hr : Room c v xs x.size) {k : Nat} (hk : k ≤ xs.length) :
    insertRepaired c k x v = .ok () (inserted v xs k x) := by
  have h1 := hr.holds
  have hb := hr.bytes
  have hcm := h1.capMax
  have hsp := h1.span
  have hrec := hr.recs
  have hl := h1.length
  have htk := totalWidth_take_le id xs k
  unfold insertRepaired
  rw [Exec.get_bind, Exec.orUb_bind (VS.newUnchecked_eq (by omega)), Exec.debugAssert_bind (by unfold len; omega),
    byteLen_eq h1, Exec.debugAssert_bind (by omega), Exec.orUb_bind (startOffset_eq h1 k hk),
    Exec.orUb_bind (VS.uncheckedSub_eq htk (by omega)),
    Exec.require_bind (by constructor <;> show _ ≤ _ <;> omega), Exec.bind_ok (memmove_eq (by omega) (by omega))]
  let w1 : AVec A β := { v with heap := { v.heap with mem := moved v.heap.mem (totalWidth id (xs.take k)) (totalWidth id (xs.take k) + x.size) (totalWidth id xs - totalWidth id (xs.take k)) } }
  let w2 : AVec A β := { w1 with heap := { w1.heap with mem := written w1.heap.mem (totalWidth id (xs.take k)) x.bytes } }
  have hw : memwrite v.ptr (totalWidth id (xs.take k)) x.bytes w1 = .ok () w2 :=
    memwrite_eq (v := w1) (by rw [show w1.heap.span v.ptr = v.heap.span v.ptr from rfl, hx.bytes_len]; omega)
  rw [Exec.bind_ok hw]
  exact insertRecords_eq (w := w2) hr rfl k hk rfl rfl

/-- The contract, with the changed `insert`. -/
def implRepaired (hA : A.Fits c) : Impl c (alignedRepairedP (β := β) c A) :=
  { implF (β := β) hA with
    insPlain := fun _ _ _ => True
    insert := fun h _ hx _ hc hw _ k hk _ =>
      ⟨_, insertRepaired_eq hx ⟨h, hc, hw⟩ hk, inserted_holds_stored hA hx ⟨h, hc, hw⟩ k, rfl, rfl, rfl, rfl, rfl⟩ }

end AVec

/-! ## `from_sized` -/

section
variable {T : UTy} {A : ATy} {β : Type} [Inhabited β] {c : Cfg} {r : RawVec β} {xs : List (List β)}

theorem totalWidth_unsized {w : Nat → Nat} {md : T.Meta} (xs : List (List β)) :
    totalWidth w (xs.map (unsized md)) = xs.length * w (T.sizeOf md) := by
  induction xs with
  | nil => simp
  | cons x xs ih =>
    rw [List.map_cons, totalWidth_cons, ih, List.length_cons, Nat.succ_mul, Nat.add_comm]
    rfl

theorem infosFrom_unsized {R : Type} {enc : T.Meta → R} {w : Nat → Nat} {md : T.Meta} (hw : w (T.sizeOf md) = T.sizeOf md)
    (xs : List (List β)) : infosFrom enc w 0 (xs.map (unsized md)) =
      (List.range xs.length).map (fun i => ⟨enc md, (i + 1) * T.sizeOf md⟩) := by
  refine List.ext_getElem? fun i => ?_
  rw [infosFrom_getElem?]
  by_cases hi : i < xs.length
  · rw [List.getElem?_map, List.getElem?_map, List.getElem?_eq_getElem hi, List.getElem?_range hi, ← List.map_take,
      totalWidth_unsized, List.length_take, Nat.min_eq_left (by omega), hw]
    simp only [Option.map_some, unsized, Val.size, Option.some.injEq, Info.mk.injEq, true_and]
    rw [Nat.succ_mul]; omega
  · rw [List.getElem?_eq_none (by simpa using hi), List.getElem?_eq_none (by simpa using hi)]
    rfl

theorem memAt_unsized {mem : Nat → β} {w : Nat → Nat} {md : T.Meta} (hw : w (T.sizeOf md) = T.sizeOf md) (xs : List (List β))
    (off : Nat) (h : ∀ i (hi : i < xs.length), BytesAre mem (off + i * T.sizeOf md) xs[i]) :
    MemAt mem w off (xs.map (unsized md)) := by
  induction xs generalizing off with
  | nil => trivial
  | cons x xs ih =>
    refine ⟨?_, ?_⟩
    · have := h 0 (by simp)
      simpa [unsized] using this
    · show MemAt mem w (off + w (T.sizeOf md)) _
      rw [hw]
      refine ih _ fun i hi => ?_
      have := h (i + 1) (by simpa using hi)
      rw [Nat.succ_mul] at this
      rw [show off + T.sizeOf md + i * T.sizeOf md = off + (i * T.sizeOf md + T.sizeOf md) by omega]
      simpa using this

theorem UVec.fromSizedRepaired_eq (h : r.Holds c xs) (md : T.Meta) :
    UVec.fromSizedRepaired c r md = some ⟨r.ptr, r.cap * r.elemSize,
      (List.range xs.length).map (fun i => ⟨md, (i + 1) * r.elemSize⟩), xs.length, r.elemAlign, r.heap, []⟩ := by
  have h1 := h.capMax
  have h2 := VS.max_le_isizeMax c r.elemAlign
  have h3 := c.isizeMax_le_usizeMax
  unfold fromSizedRepaired
  rw [uncheckedMul_eq (by omega)]
  simp only [bind, Option.bind]
  rw [VSU.newUnchecked_eq (by omega), h.len, mapM_range_map (g := fun i => ⟨md, (i + 1) * r.elemSize⟩)]
  · rfl
  · intro i hi
    have := h.mul_le (i := i + 1) hi
    rw [uncheckedMul_eq (by omega)]
    simp only
    rw [VSU.newUnchecked_eq (by omega)]
    rfl

theorem AVec.fromSizedRepaired_eq (h : r.Holds c xs) (hal : r.elemAlign = A.ALIGN) (md : A.ty.Meta) :
    AVec.fromSizedRepaired c r md = some (⟨r.ptr, r.cap * r.elemSize,
      (List.range xs.length).map (fun i => ⟨A.enc md, (i + 1) * r.elemSize⟩), xs.length, r.heap, []⟩ : AVec A β) := by
  have h1 := h.capMax
  have h2 := VS.max_le_isizeMax c r.elemAlign
  have h3 := c.isizeMax_le_usizeMax
  unfold fromSizedRepaired
  rw [uncheckedMul_eq (by omega)]
  simp only [bind, Option.bind]
  rw [VS.newUnchecked_eq (by rw [← hal]; omega), h.len, mapM_range_map (g := fun i => ⟨A.enc md, (i + 1) * r.elemSize⟩)]
  · rfl
  · intro i hi
    have := h.mul_le (i := i + 1) hi
    rw [uncheckedMul_eq (by omega)]
    simp only
    rw [VS.newUnchecked_eq (by rw [← hal]; omega)]
    rfl

end

end Verif
