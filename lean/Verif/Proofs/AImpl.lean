import Verif.Proofs.Impl
import Verif.Proofs.AOps

set_option linter.unusedSectionVars false

/-!
# Statically aligned vectors: emplacers, and the contract of the public interface
-/

namespace Verif
namespace AVec
variable {A : ATy} {β : Type} {c : Cfg} {v : AVec A β} {xs : List (Val A.ty β)} [Inhabited β]

theorem reserveForEmplace_meets (hA : A.Fits c) (h : v.Holds c xs) {env : Env (Val A.ty β)} (hv : env.Valid)
    {n al : Nat} :
    (reserveForEmplace c env ⟨n, al⟩ v).Meets
      (fun _ v' => Room c v' xs n ∧ v'.drops = v.drops ∧ Grown env v v' n)
      (fun v' => v'.Holds c xs ∧ v'.drops = v.drops ∧ v'.byteCap = v.byteCap ∧ (env.Refuses (xs.length + 1) (request v n) ∨ TooLarge c v xs 1 n))
      (env.Refuses (xs.length + 1) (request v n)) := by
  unfold reserveForEmplace
  rcases tryReserve_spec h env 1 with ⟨cap, h1, h2, h3, _⟩ | ⟨e, h1, h2, _⟩
  · rw [Exec.bind_ok h1]
    dsimp only
    have h' := h.withElemsCap (n := cap) (by omega)
    rcases tryReserveAdditionalBytes_spec hA h' hv n with ⟨v', h4, h5, h7, h6⟩ | ⟨e, h4, h5, _⟩
    · rw [Exec.bind_ok h4]
      have hs := h5.spare
      have hc := h'.cap
      refine ⟨⟨h5.holds, ?_, ?_⟩, h5.drops, h5.spare, h5.fresh, h6, fun h0 => by rw [h7 h0]; exact ⟨rfl, rfl⟩⟩
      · rw [h5.elemsCap]
        simp only
        omega
      · dsimp only at hs hc
        omega
    · rw [Exec.bind_ok h4]
      rcases h5 with ⟨rfl, h6⟩ | ⟨rfl, hl⟩
      · exact ⟨h', rfl, rfl, .inr (.inr h6)⟩
      · exact .inr hl
  · rw [Exec.bind_ok h1]
    dsimp only
    rcases h2 with ⟨rfl, h3⟩ | hm
    · exact ⟨h, rfl, rfl, .inr (.inl h3)⟩
    · cases e with
      | capacityOverflow => exact ⟨h, rfl, rfl, .inl (.inl ⟨_, hm⟩)⟩
      | allocError => exact .inl ⟨_, hm⟩

/-! ## push_with -/

/-- Writing behind the last element does not change the contents. -/
theorem Holds.scribble (h : v.Holds c xs) (bs : List β) :
    ({ v with heap := { v.heap with mem := written v.heap.mem (totalWidth id xs) bs } } : AVec A β).Holds c xs where
  wf := h.wf
  keeps := h.keeps
  infos := h.infos
  recs := h.recs
  cap := h.cap
  capMax := h.capMax
  mem := h.mem.frame le_id h.bytes fun i _ hi => by
    dsimp only at hi ⊢
    unfold written; rw [if_neg]; omega
  block := h.block.mem_eq rfl
  leaks := h.leaks

omit [Inhabited β] in
theorem size_le_max (hA : A.Fits c) {md : A.ty.Meta} (hmd : MetaOk c md) : A.ty.sizeOf md ≤ VS.max c A.ALIGN := by
  have h1 := hA.room md hmd.align_dvd hmd.size_le
  unfold VS.max
  omega

theorem pushWith_meets (hA : A.Fits c) (h : v.Holds c xs) {env : Env (Val A.ty β)} (hv : env.Valid)
    {md : A.ty.Meta} (hmd : MetaOk c md) :
    (pushWith c env ⟨A.ty.sizeOf md, A.ty.alignOf md⟩ md v).Meets
      (fun p v1 => p.Places v1 (A.ty.sizeOf md) (fun v' => v'.Holds c xs ∧ v'.drops = v.drops)
        (fun bs v' => v'.Holds c (xs ++ [A.stored ⟨md, bs⟩]) ∧ v'.drops = v.drops ∧ Grown env v v' (A.ty.sizeOf md)))
      (fun v' => v'.Holds c xs ∧ v'.drops = v.drops ∧ v'.byteCap = v.byteCap ∧ (env.Refuses (xs.length + 1) (request v (A.ty.sizeOf md)) ∨ TooLarge c v xs 1 (A.ty.sizeOf md)))
      (env.Refuses (xs.length + 1) (request v (A.ty.sizeOf md))) := by
  have hsz := size_le_max hA hmd
  unfold pushWith
  rw [Exec.orUb_bind (VS.newUnchecked_eq (by dsimp only; omega))]
  refine (reserveForEmplace_meets hA h hv).bind ?_
  rintro _ v1 ⟨hr, hd, hg⟩
  have h1 := hr.holds
  have hb := hr.bytes
  have hcm := h1.capMax
  have hsp := h1.span
  rw [Exec.get_bind, byteLen_eq h1, Exec.require_bind (by show _ ≤ _; omega)]
  refine ⟨_, _, _, rfl, ?_, ?_⟩
  · intro bs hbs
    refine ⟨_, _, ?_, rfl, h1.scribble bs, hd⟩
    rw [Exec.require_bind hbs]
    exact memwrite_eq (by omega)
  · intro bs hbs
    refine ⟨{ v1 with heap := { v1.heap with mem := written v1.heap.mem (totalWidth id xs) bs } }, pushed v1 xs ⟨md, bs⟩, ?_, ?_, ?_, hd, hg.le, hg.fresh, hg.exact, hg.idle⟩
    · rw [Exec.require_bind (by dsimp only; omega)]
      exact memwrite_eq (by omega)
    · have hl := h1.length
      have hrec := hr.recs
      rw [Exec.orUb_bind (VS.uncheckedAdd_eq (by dsimp only; omega)), infoPush_eq (by dsimp only; omega)]
      unfold pushed
      rw [infosFrom_concat, h1.infos]
      simp [Val.size]
    · exact pushed_holds_stored hA (hmd.wf hbs) hr

/-! ## insert_with -/

/-- The vector after `x` has been inserted at `k`. -/
def inserted (v : AVec A β) (xs : List (Val A.ty β)) (k : Nat) (x : Val A.ty β) : AVec A β :=
  { v with
    elems := infosFrom A.enc id 0 (xs.take k ++ x :: xs.drop k)
    heap := { v.heap with
      mem := written (moved v.heap.mem (totalWidth id (xs.take k)) (totalWidth id (xs.take k) + x.size)
        (totalWidth id xs - totalWidth id (xs.take k))) (totalWidth id (xs.take k)) x.bytes } }

theorem inserted_holds {x : Val A.ty β} (hx : x.WF c) (hm : A.Keeps x.md) (hr : Room c v xs x.size) (k : Nat) :
    (inserted v xs k x).Holds c (xs.take k ++ x :: xs.drop k) where
  wf y hy := by
    rcases List.mem_append.mp hy with hy | hy
    · exact hr.holds.wf y (List.mem_of_mem_take hy)
    · rcases List.mem_cons.mp hy with rfl | hy
      · exact hx
      · exact hr.holds.wf y (List.mem_of_mem_drop hy)
  keeps y hy := by
    rcases List.mem_append.mp hy with hy | hy
    · exact hr.holds.keeps y (List.mem_of_mem_take hy)
    · rcases List.mem_cons.mp hy with rfl | hy
      · exact hm
      · exact hr.holds.keeps y (List.mem_of_mem_drop hy)
  infos := rfl
  recs := by
    have := hr.recs
    simp only [inserted, List.length_append, List.length_cons, List.length_take, List.length_drop]
    omega
  cap := by
    have h1 := hr.bytes
    have h2 := totalWidth_take_drop id xs k
    simp only [inserted, totalWidth_append, totalWidth_cons, id]
    omega
  capMax := hr.holds.capMax
  mem := memAt_insert (w := id) le_id hr.holds.bytes hx.bytes_len hr.holds.mem (by rw [extent_id]; exact Nat.le_refl _)
  block := hr.holds.block.mem_eq rfl
  leaks := hr.holds.leaks

theorem inserted_stored (hA : A.Fits c) (x : Val A.ty β) (k : Nat) : inserted v xs k (A.stored x) = inserted v xs k x := by
  unfold inserted
  rw [infosFrom_stored hA, stored_size hA]
  rfl

theorem inserted_holds_stored (hA : A.Fits c) {x : Val A.ty β} (hx : x.WF c) (hr : Room c v xs x.size) (k : Nat) :
    (inserted v xs k x).Holds c (xs.take k ++ A.stored x :: xs.drop k) := by
  rw [← inserted_stored (v := v) (xs := xs) hA]
  exact inserted_holds (stored_wf hA hx) (stored_keeps hA x) (by rw [stored_size hA]; exact hr) k

/-- The record updates of an insertion. -/
theorem insertRecords_eq {w : AVec A β} {x : Val A.ty β} {n : Nat} (hr : Room c v xs n) (hn : x.size = n) (k : Nat)
    (hk : k ≤ xs.length) (hw : w.elems = v.elems) (hwc : w.elemsCap = v.elemsCap) :
    (do adjustFrom k (bumpInfos c A.ALIGN n)
        let e ← Exec.orUb (VS.uncheckedAdd c A.ALIGN (totalWidth id (xs.take k)) n)
        infoInsert k ⟨A.enc x.md, e⟩ : Exec (AVec A β) Unit) w =
      .ok () { w with elems := infosFrom A.enc id 0 (xs.take k ++ x :: xs.drop k) } := by
  have h := hr.holds
  have hl := h.length
  have hb := hr.bytes
  have hcm := h.capMax
  have htd := totalWidth_take_drop id xs k
  have hrec := hr.recs
  have hdr : w.elems.drop k = infosFrom A.enc id (totalWidth id (xs.take k)) (xs.drop k) := by
    rw [hw, h.infos, infosFrom_drop]; simp
  have htk : w.elems.take k = infosFrom A.enc id 0 (xs.take k) := by
    rw [hw, h.infos, infosFrom_take]
  rw [Exec.bind_ok (adjustFrom_eq (by rw [hw]; omega) (by rw [hdr]; exact bumpInfos_eq le_id (by omega))), htk,
    Exec.orUb_bind (VS.uncheckedAdd_eq (by omega))]
  have hlt : (infosFrom A.enc id 0 (xs.take k)).length = k := by simp; omega
  rw [infoInsert_eq (by simp only [List.length_append, infosFrom_length, List.length_take, List.length_drop]; omega)
    (by simp only [List.length_append, infosFrom_length, List.length_take, List.length_drop]; omega)]
  simp only
  rw [List.take_left' hlt, List.drop_left' hlt, infosFrom_insert, hn]
  rfl

theorem insertWith_meets (hA : A.Fits c) (h : v.Holds c xs) {env : Env (Val A.ty β)} (hv : env.Valid)
    {md : A.ty.Meta} (hmd : MetaOk c md) (k : Nat) (hk : k ≤ xs.length) :
    (insertWithUnchecked c env k ⟨A.ty.sizeOf md, A.ty.alignOf md⟩ md v).Meets
      (fun p v1 => p.Places v1 (A.ty.sizeOf md) (fun v' => v'.Holds c xs ∧ v'.drops = v.drops)
        (fun bs v' => v'.Holds c (xs.take k ++ A.stored ⟨md, bs⟩ :: xs.drop k) ∧ v'.drops = v.drops ∧ Grown env v v' (A.ty.sizeOf md)))
      (fun v' => v'.Holds c xs ∧ v'.drops = v.drops ∧ v'.byteCap = v.byteCap ∧ (env.Refuses (xs.length + 1) (request v (A.ty.sizeOf md)) ∨ TooLarge c v xs 1 (A.ty.sizeOf md)))
      (env.Refuses (xs.length + 1) (request v (A.ty.sizeOf md))) := by
  have hsz := size_le_max hA hmd
  unfold insertWithUnchecked
  rw [Exec.orUb_bind (VS.newUnchecked_eq (by dsimp only; omega))]
  refine (reserveForEmplace_meets hA h hv).bind ?_
  rintro _ v1 ⟨hr, hd, hg⟩
  have h1 := hr.holds
  have hb := hr.bytes
  have hcm := h1.capMax
  have hsp := h1.span
  have htk := totalWidth_take_le id xs k
  dsimp only
  rw [Exec.get_bind, Exec.orUb_bind (startOffset_eq h1 k hk), Exec.require_bind (by show _ ≤ _; omega),
    byteLen_eq h1, Exec.orUb_bind (VS.uncheckedSub_eq htk (by omega)),
    Exec.require_bind (by show _ ≤ _; omega), Exec.bind_ok (memmove_eq (by omega) (by omega))]
  let w1 : AVec A β := { v1 with heap := { v1.heap with mem := moved v1.heap.mem (totalWidth id (xs.take k)) (totalWidth id (xs.take k) + A.ty.sizeOf md) (totalWidth id xs - totalWidth id (xs.take k)) } }
  refine ⟨_, _, _, rfl, ?_, ?_⟩
  · intro bs hbs
    let w2 : AVec A β := { w1 with heap := { w1.heap with mem := written w1.heap.mem (totalWidth id (xs.take k)) bs } }
    refine ⟨w2, _, ?_, memmove_eq (v := w2) ?_ ?_, ?_, hd⟩
    · rw [Exec.require_bind hbs]
      exact memwrite_eq (v := w1) (by rw [show w1.heap.span v1.ptr = v1.heap.span v1.ptr from rfl]; omega)
    · rw [show w2.heap.span v1.ptr = v1.heap.span v1.ptr from rfl]; omega
    · rw [show w2.heap.span v1.ptr = v1.heap.span v1.ptr from rfl]; omega
    · exact ⟨h1.wf, h1.keeps, h1.infos, h1.recs, h1.cap, h1.capMax,
        memAt_insert_undo le_id h1.bytes (by omega) h1.mem (by rw [extent_id]; exact Nat.le_refl _), h1.block.mem_eq rfl, h1.leaks⟩
  · intro bs hbs
    let w2 : AVec A β := { w1 with heap := { w1.heap with mem := written w1.heap.mem (totalWidth id (xs.take k)) bs } }
    refine ⟨w2, inserted v1 xs k ⟨md, bs⟩, ?_, ?_, inserted_holds_stored hA (hmd.wf hbs) hr k, hd, hg.le, hg.fresh, hg.exact, hg.idle⟩
    · rw [Exec.require_bind (by omega)]
      exact memwrite_eq (v := w1) (by rw [show w1.heap.span v1.ptr = v1.heap.span v1.ptr from rfl]; omega)
    · exact insertRecords_eq (x := ⟨md, bs⟩) (w := w2) hr rfl k hk rfl rfl

/-! ## insert -/

theorem insertUnchecked_eq {x : Val A.ty β} (hx : x.WF c) (hr : Room c v xs x.size) {k : Nat} (hk : k ≤ xs.length)
    (hst : totalWidth id (xs.take k) = k) : insertUnchecked c k x v = .ok () (inserted v xs k x) := by
  have h1 := hr.holds
  have hb := hr.bytes
  have hcm := h1.capMax
  have hsp := h1.span
  have hrec := hr.recs
  have hl := h1.length
  have htk := totalWidth_take_le id xs k
  unfold insertUnchecked
  rw [Exec.get_bind, Exec.orUb_bind (VS.newUnchecked_eq (by omega)), Exec.debugAssert_bind (by unfold len; omega),
    byteLen_eq h1, Exec.debugAssert_bind (by omega), Exec.orUb_bind (startOffset_eq h1 k hk),
    Exec.orUb_bind (VS.uncheckedSub_eq htk (by omega)),
    Exec.require_bind (by constructor <;> show _ ≤ _ <;> omega), Exec.bind_ok (memmove_eq (by omega) (by omega))]
  let w1 : AVec A β := { v with heap := { v.heap with mem := moved v.heap.mem k (k + x.size) (totalWidth id xs - totalWidth id (xs.take k)) } }
  let w2 : AVec A β := { w1 with heap := { w1.heap with mem := written w1.heap.mem k x.bytes } }
  have hw : memwrite v.ptr k x.bytes w1 = .ok () w2 :=
    memwrite_eq (v := w1) (by rw [show w1.heap.span v.ptr = v.heap.span v.ptr from rfl, hx.bytes_len]; omega)
  rw [Exec.bind_ok hw]
  have := insertRecords_eq (w := w2) hr rfl k hk rfl rfl
  rw [this]
  unfold inserted
  simp only [hst, w2, w1]

/-! ## the contract -/

theorem Offers.gives {env : Env (Val A.ty β)} {st : Started (AVec A β) A.ty β} {v v1 v2 : AVec A β} {x : Val A.ty β}
    {mid rest : List (Val A.ty β)} (ho : Offers env st v1 x v2) (h1 : v1.Holds c mid) (hd : v1.drops = v.drops)
    (h2 : v2.Holds c rest) : Gives (AVec.Holds c) AVec.drops env st v v1 x A.ALIGN mid rest where
  layout := ho.layout
  md := ho.md
  held := ⟨h1, hd⟩
  write := ho.write
  finish := ⟨{ v2 with drops := v1.drops }, ho.finish v1.drops, h2.withDrops, hd⟩
  dropVal := ⟨{ v1 with drops := v1.drops ++ [x] }, ho.dropVal, h1.withDrops,
    by rw [hd], { v2 with drops := v1.drops ++ [x] }, ho.finish _, h2.withDrops, by rw [hd]⟩

/-- The contract of the public interface; what is stored is `A.stored`. -/
def implF (hA : A.Fits c) : Impl c (alignedP (β := β) c A) where
  H := AVec.Holds c
  st := A.stored
  drops := AVec.drops
  width _ xs := totalWidth id xs
  bcap := AVec.byteCap
  block v := (v.ptr, v.heap.block)
  EnvOk env := env.Valid
  fits _ _ := True
  insGuard _ _ _ _ := True
  insPlain _ xs k := totalWidth id (xs.take k) = k
  remGuard _ _ _ := True
  request v _ bytes _ := request v bytes
  tooBig v _ bytes _ := VS.max c A.ALIGN < (request v bytes).size
  maxLen := c.infoMax
  roomy _ _ _ := True
  anno _ := A.ALIGN
  wf h := h.wf
  len_eq h := h.len_eq
  recs h := h.recs
  byteLen_eq h := congrArg some (byteLen_eq h)
  byteCap_eq _ := rfl
  width_le h := h.cap
  alignNew _ := rfl
  tryReserve {v xs} h env n := by
    rcases tryReserve_spec h env n with ⟨cap, h1, h2, h3, h4⟩ | ⟨e, h1, h2, h3⟩
    · left
      refine ⟨_, h1, h.withElemsCap (by omega), rfl, rfl, rfl, rfl, rfl, h2, h3, ?_, fun _ _ => rfl, fun _ _ h => h, fun _ => Iff.rfl, fun _ h => h⟩
      intro h5
      rw [h4 h5]
    · exact .inr ⟨e, h1, h2, h3⟩
  addBytes {v xs} h {env} he {al} hal add := by
    rcases tryReserveAdditionalBytes_spec hA h he add with ⟨v', h1, h2, h3, h4⟩ | ⟨e, h1, h2, h3⟩
    · left
      have := h2.spare
      exact ⟨v', h1, h2.holds, h2.drops, by omega, by omega, h2.elemsCap, fun h _ => h3 h, fun he => .inr (h4 he), Nat.le_refl _, .inr rfl, .inl trivial, .inr fun _ _ => trivial⟩
    · exact .inr ⟨e, h1, h2, fun h => h3 h.1⟩
  noAdd {_ _} h env {al} _ hf := rfl
  push {_ _} h {x} hx hf hc hw _ := ⟨_, pushUnchecked_eq hx ⟨h, hc, hw⟩, pushed_holds_stored hA hx ⟨h, hc, hw⟩, rfl, rfl, rfl, rfl, rfl⟩
  insert {_ _} h {x} hx hf hc hw _ {k} hk hp :=
    ⟨_, insertUnchecked_eq hx ⟨h, hc, hw⟩ hk hp, inserted_holds_stored hA hx ⟨h, hc, hw⟩ k, rfl, rfl, rfl, rfl, rfl⟩
  pushWith {_ _} h {env} he {md} hmd hz := (pushWith_meets hA h he hmd).mono
    (fun _ _ h => h.mono (fun _ h => h) (fun _ _ h => ⟨h.1, h.2.1⟩))
    (fun _ h => ⟨h.1, h.2.1, h.2.2.2⟩) (fun h => h)
  insertWith {_ _} h {env} he {md} hmd hz {k} hk hi := (insertWith_meets hA h he hmd k hk).mono
    (fun _ _ h => h.mono (fun _ h => h) (fun _ _ h => ⟨h.1, h.2.1⟩))
    (fun _ h => ⟨h.1, h.2.1, h.2.2.2⟩) (fun h => h)
  get h k hk := ⟨_, getUnchecked_eq hA h k hk, rfl⟩
  pop h env := by
    obtain ⟨st, h1, h2⟩ := popIntoUnchecked_spec hA env h
    exact ⟨st, _, h1, h2.gives (popped_holds h) rfl (popped_holds h)⟩
  remove h env k hk hr := by
    obtain ⟨st, h1, h2⟩ := removeIntoUnchecked_spec hA env h k hk
    exact ⟨st, _, h1, h2.gives h rfl (removed_holds h k hk)⟩

/-- The contract of the public interface for types whose metadata can be recovered. -/
def impl (hA : A.Lawful c) : Impl c (alignedP (β := β) c A) :=
  have hs : (implF (β := β) hA.fits).st = id := funext hA.stored
  { implF hA.fits with
    st := id
    push := hs ▸ (implF hA.fits).push
    insert := hs ▸ (implF hA.fits).insert
    pushWith := hs ▸ (implF hA.fits).pushWith
    insertWith := hs ▸ (implF hA.fits).insertWith }

end AVec
end Verif
