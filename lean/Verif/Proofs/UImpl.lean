import Verif.Proofs.Impl
import Verif.Proofs.UEmplace

set_option linter.unusedSectionVars false

/-!
# Dynamically aligned vectors satisfy the contract of the public interface
-/

namespace Verif
namespace UVec
variable {T : UTy} {β : Type} {G : Prop} {c : Cfg} {v : UVec T β} {xs : List (Val T β)} [Inhabited β]

theorem insertUnchecked_eq {x : Val T β} (hx : x.WF c) (hr : Room G c v xs x.size x.align) {k : Nat} (hk : k ≤ xs.length)
    (hok : InsertPlainOk v xs k) : insertUnchecked c k x v = .ok () (inserted v xs k x) := by
  have h1 := hr.holds
  have hb := hr.bytes
  have hcm := h1.capMax
  have hsp := h1.span
  have hrec := hr.recs
  have hl := h1.length
  have hle := insertOk_le h1.al.pos hok.1
  have hst := hok.2
  have hex := extent_le (padTo v.align) h1.le_w xs
  have htk := totalWidth_take_le (padTo v.align) xs k
  have hpw := le_padTo h1.al.pos x.size
  unfold insertUnchecked
  rw [Exec.get_bind, Exec.debugAssert_bind (by unfold len; omega), Exec.debugAssert_bind (by unfold len; omega),
    Exec.orUb_bind (VSU.uncheckedPadTo_eq h1.al (by omega) (by omega)), Exec.orUb_bind (alignedByteLen_eq h1),
    Exec.debugAssert_bind (by omega), Exec.debugAssert_bind (Nat.le_of_dvd h1.al.pos hr.align),
    Exec.orUb_bind (startOffset_eq h1 k hk), unalignedByteLen_eq h1, Exec.orUb_bind (VSU.uncheckedSub_eq hle (by omega)),
    Exec.require_bind (by constructor <;> show _ ≤ _ <;> omega), Exec.bind_ok (memmove_eq (by omega) (by omega))]
  let w1 : UVec T β := { v with heap := { v.heap with mem := moved v.heap.mem k (k + padTo v.align x.size) (extent (padTo v.align) xs - totalWidth (padTo v.align) (xs.take k)) } }
  let w2 : UVec T β := { w1 with heap := { w1.heap with mem := written w1.heap.mem k x.bytes } }
  have hw : memwrite v.ptr k x.bytes w1 = .ok () w2 :=
    memwrite_eq (v := w1) (by rw [show w1.heap.span v.ptr = v.heap.span v.ptr from rfl, hx.bytes_len]; omega)
  rw [Exec.bind_ok hw]
  have := insertRecords_eq (w := w2) hr rfl k hk rfl rfl
  rw [this]
  unfold inserted
  simp only [hst, w2, w1]

theorem Offers.gives {env : Env (Val T β)} {st : Started (UVec T β) T β} {v v1 v2 : UVec T β} {x : Val T β}
    {mid rest : List (Val T β)} (ho : Offers env st v1 x v2) (h1 : v1.Represents G c mid) (hd : v1.drops = v.drops)
    (h2 : v2.Represents G c rest) : Gives (UVec.Represents G c) UVec.drops env st v v1 x x.align mid rest where
  layout := ho.layout
  md := ho.md
  held := ⟨h1, hd⟩
  write := ho.write
  finish := ⟨{ v2 with drops := v1.drops }, ho.finish v1.drops,
    ⟨h2.wf, h2.al, h2.elemAl, h2.infos, h2.recs, h2.cap, h2.capDvd, h2.room, h2.mem, h2.block, h2.leaks⟩, hd⟩
  dropVal := ⟨{ v1 with drops := v1.drops ++ [x] }, ho.dropVal,
    ⟨h1.wf, h1.al, h1.elemAl, h1.infos, h1.recs, h1.cap, h1.capDvd, h1.room, h1.mem, h1.block, h1.leaks⟩,
    by rw [hd], { v2 with drops := v1.drops ++ [x] }, ho.finish _,
    ⟨h2.wf, h2.al, h2.elemAl, h2.infos, h2.recs, h2.cap, h2.capDvd, h2.room, h2.mem, h2.block, h2.leaks⟩, by rw [hd]⟩

omit [Inhabited β] in
theorem Represents.roomOk {G : Prop} {v : UVec T β} {xs : List (Val T β)} {n al : Nat} (h : v.Represents G c xs)
    (hr : ¬ G → al ≤ v.align → v.RoomOk xs n) (ha : al ≤ v.align) : v.RoomOk xs n := by
  by_cases hG : G
  · exact .inl (h.capDvd hG)
  · exact hr hG ha

/-- The contract of the public interface. -/
def impl (G : Prop) (c : Cfg) (T : UTy) : Impl c (unalignedP (β := β) c T) where
  H := UVec.Represents G c
  st := id
  drops := UVec.drops
  width v xs := totalWidth (padTo v.align) xs
  bcap := UVec.byteCap
  block v := (v.ptr, v.heap.block)
  EnvOk env := env.Valid ∧ (G → env.Exact)
  fits v al := al ≤ v.align
  insGuard v xs k al := InsertOk xs k (max v.align al)
  insPlain := InsertPlainOk
  remGuard := RemoveOk
  request := request
  tooBig := BytesTooLarge c
  maxLen := c.infoMax
  roomy v xs n := RoomOk v xs n
  anno := Val.align
  wf h := h.wf
  len_eq h := h.len_eq
  recs h := h.recs
  byteLen_eq h := alignedByteLen_eq h
  byteCap_eq _ := rfl
  width_le h := h.cap
  alignNew h := validAlign_new_eq h
  tryReserve {v xs} h env n := by
    rcases tryReserve_spec h env n with ⟨cap, h1, h2, h3, h4⟩ | ⟨e, h1, h2, h3⟩
    · left
      refine ⟨_, h1, h.withElemsCap (by omega), rfl, rfl, rfl, rfl, rfl, h2, h3, ?_, fun _ _ => rfl, fun _ _ h => h, fun _ => Iff.rfl, fun _ h => h⟩
      intro h5
      rw [h4 h5]
    · exact .inr ⟨e, h1, h2, h3⟩
  addBytes {v xs} h {env} he {al} hal add := by
    rcases tryReserveAdditionalBytesAlign_spec h he.1 he.2 hal add with ⟨v', h1, h2, h3⟩ | ⟨e, h1, h2, h3⟩
    · left
      refine ⟨v', h1, h2.holds, h2.drops, h2.spare, h2.mono, h2.elemsCap, h3, h2.tight, ?_, ?_, ?_,
        h2.whole.imp id (fun h4 n h5 => .inr (.inl (h4 n h5)))⟩
      · show v.align ≤ v'.align
        rcases h2.align with h4 | h4 <;> omega
      · exact h2.align.imp id And.right
      · rcases h2.align with h4 | ⟨h4, h5⟩
        · left; show al ≤ v'.align; omega
        · right; exact ⟨h4, fun h6 => by rw [h5]; exact h6⟩
    · exact .inr ⟨e, h1, h2, h3⟩
  noAdd {_ _} h env {al} _ hf := tryReserveAdditionalBytesAlign_idle h env hf
  push {_ _} h {x} hx hf hc hw hr := ⟨_, pushUnchecked_eq h hx (IsAlign.dvd_of_le hx.align_pow h.al hf) hc hw,
    pushed_holds h hx (IsAlign.dvd_of_le hx.align_pow h.al hf) hc (h.room_of hr hw), rfl, rfl, rfl, rfl, rfl⟩
  insert {_ _} h {x} hx hf hc hw hr {k} hk hp := by
    have hr : Room G c _ _ x.size x.align := ⟨h, hc, h.room_of hr hw, IsAlign.dvd_of_le hx.align_pow h.al hf⟩
    exact ⟨_, insertUnchecked_eq hx hr hk hp, inserted_holds hx hr k, rfl, rfl, rfl, rfl, rfl⟩
  pushWith {_ _} h {env} he {md} hmd hz := (pushWith_meets h he.1 he.2 hmd hz).mono
    (fun _ _ h => h.mono (fun _ h => h) (fun _ _ h => ⟨h.1, h.2.1⟩))
    (fun _ h => ⟨h.1, h.2.1, h.2.2.2⟩) (fun h => h)
  insertWith {_ _} h {env} he {md} hmd hz {k} hk hi := (insertWith_meets h he.1 he.2 hmd hz k hk hi).mono
    (fun _ _ h => h.mono (fun _ h => h) (fun _ _ h => ⟨h.1, h.2.1⟩))
    (fun _ h => ⟨h.1, h.2.1, h.2.2.2⟩) (fun h => h)
  get h k hk := ⟨_, getUnchecked_eq h k hk, rfl⟩
  pop h env := by
    obtain ⟨st, h1, h2⟩ := popIntoUnchecked_spec env h
    exact ⟨st, _, h1, h2.gives (popped_holds h) rfl (popped_holds h)⟩
  remove h env k hk hr := by
    obtain ⟨st, h1, h2⟩ := removeIntoUnchecked_spec env h k hk (removeOk_le h k hk hr)
    exact ⟨st, _, h1, h2.gives h rfl (removed_holds h k hk (removeOk_le h k hk hr))⟩

end UVec
end Verif
