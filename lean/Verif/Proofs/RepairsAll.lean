import Verif.Spec.RepairsAll
import Verif.Proofs.RepairsShrink
import Verif.Proofs.RepairsHistory
import Verif.Props.RepairsReserve
import Verif.Props.RepairsShrink

set_option linter.unusedSectionVars false

/-!
# The vector with all changes
-/

namespace Verif
namespace UVec
variable {T : UTy} {β : Type} {G : Prop} {c : Cfg} {v : UVec T β} {xs : List (Val T β)} [Inhabited β]

theorem Reserved.dvd_of_le {env : Env (Val T β)} {v' : UVec T β} {add al : Nat} (hr : Reserved G c env v v' xs add al)
    (hal : IsAlign c al) (hf : al ≤ v'.align) : al ∣ v'.align ∧ v'.align = max v.align al := by
  refine ⟨hal.dvd_of_le hr.holds.al hf, ?_⟩
  rcases hr.align with h1 | ⟨_, h1⟩ <;> omega

/-- `reserveForEmplace_meets` without its guard. -/
theorem reserveForEmplaceRepaired_meets (h : v.Represents G c xs) {env : Env (Val T β)} (hv : env.Valid) (he : G → env.Exact)
    {n al : Nat} (hal : IsAlign c al) :
    (reserveForEmplaceRepaired c env ⟨n, al⟩ v).Meets
      (fun _ v' => Room G c v' xs n al ∧ v'.drops = v.drops ∧ v'.align = max v.align al ∧ Grown env v v' xs n al)
      (fun v' => v'.Represents G c xs ∧ v'.drops = v.drops ∧ v'.byteCap = v.byteCap ∧ (env.Refuses (xs.length + 1) (request v xs n al) ∨ TooLarge c v xs 1 n al))
      (env.Refuses (xs.length + 1) (request v xs n al)) := by
  unfold reserveForEmplaceRepaired
  rcases tryReserve_spec h env 1 with ⟨cap, h1, h2, h3, _⟩ | ⟨e, h1, h2, _⟩
  · rw [Exec.bind_ok h1]
    dsimp only
    have h' := h.withElemsCap (n := cap) (by omega)
    rcases tryReserveAdditionalRepaired_spec h' hv he hal n with ⟨v', h4, h5, _, hf⟩ | ⟨e, h4, h5, _⟩
    · rw [Exec.bind_ok h4]
      have hd := h5.dvd_of_le hal hf
      have hg := h5.grows h'
      refine ⟨⟨h5.holds, ?_, ?_, hd.1⟩, h5.drops, hd.2, hg, h5.fresh, hd.2, h5.tight⟩
      · rw [h5.elemsCap]
        simp only
        omega
      · by_cases h0 : n = 0
        · subst h0
          rw [padTo_of_dvd h5.holds.al.pos (Nat.dvd_zero _)]
          exact h5.holds.cap
        · rcases h5.whole with h6 | h6
          · exact absurd (by rw [h6]) (h5.fresh (by omega))
          · exact h6 n (by have := h.cap; dsimp only; omega)
    · rw [Exec.bind_ok h4]
      rcases h5 with ⟨rfl, h6⟩ | ⟨rfl, hl⟩
      · exact ⟨h', rfl, rfl, .inr (.inr h6)⟩
      · exact .inr hl
  · rw [Exec.bind_ok h1]
    dsimp only
    rcases h2 with ⟨rfl, h3⟩ | hm
    · exact ⟨h, rfl, rfl, .inr (.inl h3)⟩
    · cases e with
      | capacityOverflow => exact ⟨h, rfl, rfl, .inl (.inl ⟨_, hm⟩)⟩
      | allocError => exact .inl ⟨_, hm⟩

/-- `pushWith_meets` without its guard. -/
theorem pushWithRepaired_meets (h : v.Represents G c xs) {env : Env (Val T β)} (hv : env.Valid) (he : G → env.Exact)
    {md : T.Meta} (hmd : MetaOk c md) :
    (pushWithRepaired c env ⟨T.sizeOf md, T.alignOf md⟩ md v).Meets
      (fun p v1 => p.Places v1 (T.sizeOf md) (fun v' => v'.Represents G c xs ∧ v'.drops = v.drops)
        (fun bs v' => v'.Represents G c (xs ++ [⟨md, bs⟩]) ∧ v'.drops = v.drops ∧ v.align ≤ v'.align ∧ Grown env v v' xs (T.sizeOf md) (T.alignOf md)))
      (fun v' => v'.Represents G c xs ∧ v'.drops = v.drops ∧ v'.byteCap = v.byteCap ∧ (env.Refuses (xs.length + 1) (request v xs (T.sizeOf md) (T.alignOf md)) ∨ TooLarge c v xs 1 (T.sizeOf md) (T.alignOf md)))
      (env.Refuses (xs.length + 1) (request v xs (T.sizeOf md) (T.alignOf md))) := by
  have hsz := hmd.size_le
  unfold pushWithRepaired
  rw [Exec.orUb_bind (VSU.newUnchecked_eq (by dsimp only; omega))]
  refine (reserveForEmplaceRepaired_meets h hv he hmd.align_pow).bind ?_
  rintro _ v1 ⟨hr, hd, ha, hc⟩
  have h1 := hr.holds
  have hb := hr.bytes
  have hpad := h1.le_w (T.sizeOf md)
  have hcm := h1.capMax
  have hsp := h1.span
  rw [Exec.get_bind, Exec.orUb_bind (alignedByteLen_eq h1), Exec.require_bind (by show _ ≤ _; omega)]
  refine ⟨_, _, _, rfl, ?_, ?_⟩
  · intro bs hbs
    refine ⟨_, _, ?_, rfl, h1.scribble bs, hd⟩
    rw [Exec.require_bind hbs]
    exact memwrite_eq (by omega)
  · intro bs hbs
    refine ⟨{ v1 with heap := { v1.heap with mem := written v1.heap.mem (totalWidth (padTo v1.align) xs) bs } }, pushed v1 xs ⟨md, bs⟩, ?_, ?_, ?_, hd, ?_, hc.le, hc.fresh, hc.align, hc.tight⟩
    · rw [Exec.require_bind (by dsimp only; omega)]
      exact memwrite_eq (by omega)
    · have hl := h1.length
      have hrec := hr.recs
      rw [Exec.orUb_bind (VSU.uncheckedAdd_eq (by dsimp only; omega)), infoPush_eq (by dsimp only; omega)]
      unfold pushed
      rw [infosFrom_concat, h1.infos]
      simp [Val.size]
    · exact pushed_holds h1 (hmd.wf hbs) hr.align hr.recs hb
    · show v.align ≤ v1.align; omega

/-- `insertWith_meets` without its guards. -/
theorem insertWithAllRepaired_meets (h : v.Represents G c xs) {env : Env (Val T β)} (hv : env.Valid) (he : G → env.Exact)
    {md : T.Meta} (hmd : MetaOk c md) (k : Nat) (hk : k ≤ xs.length) :
    (insertWithAllRepaired c env k ⟨T.sizeOf md, T.alignOf md⟩ md v).Meets
      (fun p v1 => p.Places v1 (T.sizeOf md) (fun v' => v'.Represents G c xs ∧ v'.drops = v.drops)
        (fun bs v' => v'.Represents G c (xs.take k ++ ⟨md, bs⟩ :: xs.drop k) ∧ v'.drops = v.drops ∧ Grown env v v' xs (T.sizeOf md) (T.alignOf md)))
      (fun v' => v'.Represents G c xs ∧ v'.drops = v.drops ∧ v'.byteCap = v.byteCap ∧ (env.Refuses (xs.length + 1) (request v xs (T.sizeOf md) (T.alignOf md)) ∨ TooLarge c v xs 1 (T.sizeOf md) (T.alignOf md)))
      (env.Refuses (xs.length + 1) (request v xs (T.sizeOf md) (T.alignOf md))) := by
  have hsz := hmd.size_le
  unfold insertWithAllRepaired
  rw [Exec.orUb_bind (VSU.newUnchecked_eq (by dsimp only; omega))]
  refine (reserveForEmplaceRepaired_meets h hv he hmd.align_pow).bind ?_
  rintro _ v1 ⟨hr, hd, hal, hc⟩
  have h1 := hr.holds
  have hb := hr.bytes
  have hcm := h1.capMax
  have hsp := h1.span
  have hex := extent_le (padTo v1.align) h1.le_w xs
  have htk := totalWidth_take_le (padTo v1.align) xs k
  dsimp only
  have hpw := le_padTo h1.al.pos (T.sizeOf md)
  rw [Exec.get_bind, Exec.orUb_bind (VSU.uncheckedPadTo_eq h1.al (by omega) (by omega)),
    Exec.orUb_bind (startOffset_eq h1 k hk), Exec.require_bind (by show _ ≤ _; omega),
    unalignedByteLen_eq h1,
    Exec.require_bind (by show _ ≤ _; omega), Exec.bind_ok (memmove_eq (by omega) (by omega))]
  let w1 : UVec T β := { v1 with heap := { v1.heap with mem := moved v1.heap.mem (totalWidth (padTo v1.align) (xs.take k)) (totalWidth (padTo v1.align) (xs.take k) + padTo v1.align (T.sizeOf md)) (extent (padTo v1.align) xs - totalWidth (padTo v1.align) (xs.take k)) } }
  have hsp1 : w1.heap.span w1.ptr = v1.heap.span v1.ptr := rfl
  refine ⟨_, _, _, rfl, ?_, ?_⟩
  · intro bs hbs
    let w2 : UVec T β := { w1 with heap := { w1.heap with mem := written w1.heap.mem (totalWidth (padTo v1.align) (xs.take k)) bs } }
    have hsp2 : w2.heap.span w2.ptr = v1.heap.span v1.ptr := rfl
    refine ⟨w2, _, ?_, memmove_eq (v := w2) ?_ ?_, ?_, hd⟩
    · rw [Exec.require_bind hbs]
      exact memwrite_eq (v := w1) (by rw [show w1.heap.span v1.ptr = v1.heap.span v1.ptr from rfl]; omega)
    · rw [show w2.heap.span v1.ptr = v1.heap.span v1.ptr from rfl]; omega
    · rw [show w2.heap.span v1.ptr = v1.heap.span v1.ptr from rfl]; omega
    · exact ⟨h1.wf, h1.al, h1.elemAl, h1.infos, h1.recs, h1.cap, h1.capDvd, h1.room,
        memAt_insert_undo h1.le_w h1.bytes (by omega) h1.mem (Nat.le_refl _), h1.block.mem_eq rfl, h1.leaks⟩
  · intro bs hbs
    let w2 : UVec T β := { w1 with heap := { w1.heap with mem := written w1.heap.mem (totalWidth (padTo v1.align) (xs.take k)) bs } }
    refine ⟨w2, inserted v1 xs k ⟨md, bs⟩, ?_, ?_, inserted_holds (hmd.wf hbs) hr k, hd, hc.le, hc.fresh, hc.align, hc.tight⟩
    · rw [Exec.require_bind (by omega)]
      exact memwrite_eq (v := w1) (by rw [show w1.heap.span v1.ptr = v1.heap.span v1.ptr from rfl]; omega)
    · exact insertRecords_eq (x := ⟨md, bs⟩) (w := w2) hr rfl k hk rfl rfl

end UVec

section
variable {β : Type} [Inhabited β] {c : Cfg} {T : UTy}

/-- Four methods replaced. -/
def Provider.swap {V : Type} (P : Provider V T β) (res : Env (Val T β) → Nat → Nat → Exec V (Except TRE Unit))
    (shr : Env (Val T β) → Nat → Nat → Nat → Exec V Unit) (pw : Env (Val T β) → Emplacer V T β)
    (iw : Env (Val T β) → Nat → Emplacer V T β) : Provider V T β :=
  { P with
    tryReserveAdditionalBytesAlign := res
    shrinkTo := shr
    pushWith := pw
    insertWithUnchecked := iw }

section
omit [Inhabited β]
variable {V : Type} (P : Provider V T β) (env : Env (Val T β)) (res shr pw iw)

theorem Provider.swap_run (q : Reservation) : q.run c (P.swap P.tryReserveAdditionalBytesAlign shr pw iw) env = q.run c P env := by
  cases q <;> rfl
theorem Provider.swap_attempt (q : Reservation) :
    q.attempt c (P.swap P.tryReserveAdditionalBytesAlign shr pw iw) env = q.attempt c P env := by cases q <;> rfl
theorem Provider.swap_shrink (q : Shrinking) : q.run c (P.swap res P.shrinkTo pw iw) env = q.run c P env := by cases q <;> rfl
theorem Provider.swap_push (x : Val T β) :
    Api.push c (P.swap P.tryReserveAdditionalBytesAlign shr pw iw) env x = Api.push c P env x := rfl
theorem Provider.swap_insert (i : Nat) (x : Val T β) :
    Api.insert c (P.swap P.tryReserveAdditionalBytesAlign shr pw iw) env i x = Api.insert c P env i x := rfl

end

theorem unalignedAllP_reserving : unalignedAllP (β := β) c T = (unalignedReservingP c T).swap (unalignedReservingP c T).tryReserveAdditionalBytesAlign
    (UVec.shrinkToRepaired c) (UVec.pushWithRepaired c) (UVec.insertWithAllRepaired c) := rfl
theorem unalignedAllP_shrinking : unalignedAllP (β := β) c T = (unalignedShrinkingP c T).swap (UVec.tryReserveAdditionalRepaired c)
    (unalignedShrinkingP c T).shrinkTo (UVec.pushWithRepaired c) (UVec.insertWithAllRepaired c) := rfl
theorem UVec.failing_short_reserving {G : Prop} {v : UVec T β} {xs : List (Val T β)} {env : Env (Val T β)} {q : Reservation}
    (h : (UVec.implReserving G c T).Failing env v xs q) :
    (∃ n l, env.Refuses n l) ∨ v.TooLarge c xs q.slots q.bytes q.align := by
  rcases h with h | h | h
  · exact .inl ⟨_, _, h⟩
  · exact .inr (.inl h)
  · exact .inr (UVec.tooLarge_mono ((UVec.implReserving G c T).ask_le v xs q) (.inr h))

/-- What is known about an emplacer, carried over to the sources of a program. -/
theorem Src.emplace_meets {v : UVec T β} {xs : List (Val T β)} {s : Src T β} {env : Env (Val T β)} (hw : (Op.pushWith s).WF c xs)
    (h : v.Holds c xs) {m : Emplacer (UVec T β) T β} {f : Val T β → List (Val T β)} {short : Prop}
    (hshort : ∀ md, (env.Refuses (xs.length + 1) (v.request xs (T.sizeOf md) (T.alignOf md)) ∨ v.TooLarge c xs 1 (T.sizeOf md) (T.alignOf md)) →
      (∀ x, s = .value x → md = x.md) → (∀ md' bs, s = .fails md' bs → md = md') → s ≠ .panics → short)
    (hm : ∀ md, MetaOk c md → (m ⟨T.sizeOf md, T.alignOf md⟩ md v).Meets
      (fun p v1 => p.Places v1 (T.sizeOf md) (fun v' => v'.Holds c xs ∧ v'.drops = v.drops)
        (fun bs v' => v'.Holds c (f ⟨md, bs⟩) ∧ v'.drops = v.drops))
      (fun v' => v'.Holds c xs ∧ v'.drops = v.drops ∧
        (env.Refuses (xs.length + 1) (v.request xs (T.sizeOf md) (T.alignOf md)) ∨ v.TooLarge c xs 1 (T.sizeOf md) (T.alignOf md)))
      (env.Refuses (xs.length + 1) (v.request xs (T.sizeOf md) (T.alignOf md)))) :
    (run (s.code env) m ([], v)).Meets
      (fun _ st => st.1 = [] ∧ ∃ x, s = .value x ∧ st.2.Holds c (f x) ∧ st.2.drops = v.drops)
      (fun st => st.1 = [] ∧ (st.2.Holds c xs ∧ st.2.drops = v.drops) ∧ ((∃ x, s = .value x) → short)) short := by
  have hs := Src.sound hw env []
  refine Src.meets (c := c) (s := s) (env := env) (H := UVec.Holds c) (D := fun v' => v'.drops = v.drops) (xs := xs) (f := f)
    (why' := fun md => env.Refuses (xs.length + 1) (v.request xs (T.sizeOf md) (T.alignOf md)))
    (fun md => env.Refuses (xs.length + 1) (v.request xs (T.sizeOf md) (T.alignOf md)) ∨ v.TooLarge c xs 1 (T.sizeOf md) (T.alignOf md))
    (fun md h1 => hshort md (h1.elim (fun h => h) Or.inl)) ?_
  refine (run_meets (P := fun md v' => v'.Holds c xs ∧ v'.drops = v.drops ∧
      (env.Refuses (xs.length + 1) (v.request xs (T.sizeOf md) (T.alignOf md)) ∨ v.TooLarge c xs 1 (T.sizeOf md) (T.alignOf md)))
    (A := fun md => env.Refuses (xs.length + 1) (v.request xs (T.sizeOf md) (T.alignOf md)))
    (After := fun x v' => v'.Holds c (f x) ∧ v'.drops = v.drops)
    (Before := fun v' => v'.Holds c xs ∧ v'.drops = v.drops) hs ⟨h, rfl⟩
    (fun st s1 hst => hm st.md (hs.metaOk st s1 hst))).mono (fun _ _ h => h) ?_ (fun h => h)
  rintro st (⟨md, h1, h2, h3, h4⟩ | ⟨h1, h2, h3⟩ | h1)
  · exact .inl ⟨h2, h3, .inr ⟨md, h1, h4⟩⟩
  · exact .inl ⟨h2, h3, .inl h1⟩
  · exact .inr h1

theorem UVec.emplace_short {v : UVec T β} {xs : List (Val T β)} {s : Src T β} {env : Env (Val T β)} {op : Op T β}
    (hop : op = .pushWith s ∨ ∃ i, op = .insertWith i s) (md : T.Meta)
    (h1 : env.Refuses (xs.length + 1) (v.request xs (T.sizeOf md) (T.alignOf md)) ∨ v.TooLarge c xs 1 (T.sizeOf md) (T.alignOf md))
    (h2 : ∀ x, s = .value x → md = x.md) (h3 : ∀ md' bs, s = .fails md' bs → md = md') (h4 : s ≠ .panics) : UVec.Short c env op v xs := by
  rcases h1 with h1 | h1
  · rcases hop with rfl | ⟨i, rfl⟩ <;> cases s <;> first | exact .inl ⟨_, _, h1⟩ | exact absurd rfl h4
  · cases s with
    | value x => rw [h2 x rfl] at h1; rcases hop with rfl | ⟨i, rfl⟩ <;> exact .inr h1
    | panics => exact absurd rfl h4
    | fails md' bs => rw [h3 md' bs rfl] at h1; rcases hop with rfl | ⟨i, rfl⟩ <;> exact .inr h1

/-- The machine with four methods replaced. -/
def Machine.swap {V : Type} (M : Machine V T β) (res : Env (Val T β) → Nat → Nat → Exec V (Except TRE Unit))
    (shr : Env (Val T β) → Nat → Nat → Nat → Exec V Unit) (pw : Env (Val T β) → Emplacer V T β)
    (iw : Env (Val T β) → Nat → Emplacer V T β) : Machine V T β :=
  { M with P := M.P.swap res shr pw iw }

section
omit [Inhabited β]
variable {V : Type} {M : Machine V T β}

/-- What is known about the other calls stays. -/
def Client.swap (K : Client c M) (res shr pw iw) (EnvOk : Env (Val T β) → Prop) (Covered : Env (Val T β) → Op T β → V → List (Val T β) → Prop)
    (coveredRemove : ∀ {env i d v xs}, Covered env (.remove i d) v xs → K.Covered env (.remove i d) v xs)
    (coveredIter : ∀ {env ks v xs}, Covered env (.iter ks) v xs → K.Covered env (.iter ks) v xs)
    (coveredMut : ∀ {v xs env ks bss}, Covered env (.iterMut ks bss) v xs → Covered env (.iter ks) v xs)
    (push : ∀ {v xs env x}, K.H v xs → EnvOk env → x.WF c → Covered env (.push x) v xs →
      (Api.push c (M.P.swap res shr pw iw) env x v).Meets (fun _ v' => K.H v' (xs ++ [x]) ∧ M.drops v' = M.drops v)
        (fun v' => (K.H v' xs ∧ M.drops v' = M.drops v) ∧ K.Short env (.push x) v xs) (K.Short env (.push x) v xs))
    (insert : ∀ {v xs env x i}, K.H v xs → EnvOk env → x.WF c → Covered env (.insert i x) v xs → i ≤ xs.length →
      (Api.insert c (M.P.swap res shr pw iw) env i x v).Meets (fun _ v' => K.H v' (xs.take i ++ x :: xs.drop i) ∧ M.drops v' = M.drops v)
        (fun v' => (K.H v' xs ∧ M.drops v' = M.drops v) ∧ K.Short env (.insert i x) v xs) (K.Short env (.insert i x) v xs))
    (insert_out : ∀ {v xs env x i}, K.H v xs → xs.length < i → Api.insert c (M.P.swap res shr pw iw) env i x v = .panic v)
    (pushWith : ∀ {v xs env} {s : Src T β}, K.H v xs → EnvOk env → (Op.pushWith s).WF c xs → Covered env (.pushWith s) v xs →
      (run (s.code env) (pw env) ([], v)).Meets
        (fun _ st => st.1 = [] ∧ ∃ x, s = .value x ∧ K.H st.2 (xs ++ [x]) ∧ M.drops st.2 = M.drops v)
        (fun st => st.1 = [] ∧ (K.H st.2 xs ∧ M.drops st.2 = M.drops v) ∧ ((∃ x, s = .value x) → K.Short env (.pushWith s) v xs))
        (K.Short env (.pushWith s) v xs))
    (insertWith : ∀ {v xs env} {s : Src T β} {i}, K.H v xs → EnvOk env → (Op.pushWith s).WF c xs → Covered env (.insertWith i s) v xs →
      i ≤ xs.length →
      (run (s.code env) (iw env i) ([], v)).Meets
        (fun _ st => st.1 = [] ∧ ∃ x, s = .value x ∧ K.H st.2 (xs.take i ++ x :: xs.drop i) ∧ M.drops st.2 = M.drops v)
        (fun st => st.1 = [] ∧ (K.H st.2 xs ∧ M.drops st.2 = M.drops v) ∧ ((∃ x, s = .value x) → K.Short env (.insertWith i s) v xs))
        (K.Short env (.insertWith i s) v xs))
    (reserve : ∀ {v xs env} {q : Reservation}, K.H v xs → EnvOk env → Covered env (.reserve q) v xs →
      (q.run c (M.P.swap res shr pw iw) env v).Meets (fun _ v' => K.H v' xs ∧ M.drops v' = M.drops v)
        (fun v' => (K.H v' xs ∧ M.drops v' = M.drops v) ∧ K.Short env (.reserve q) v xs) (K.Short env (.reserve q) v xs))
    (tryReserve : ∀ {v xs env} {q : Reservation}, K.H v xs → EnvOk env → Covered env (.tryReserve q) v xs →
      (q.attempt c (M.P.swap res shr pw iw) env v).Meets
        (fun r v' => (K.H v' xs ∧ M.drops v' = M.drops v) ∧ (r = .ok () ∨ K.Short env (.tryReserve q) v xs))
        (fun v' => (K.H v' xs ∧ M.drops v' = M.drops v) ∧ K.Short env (.tryReserve q) v xs) False)
    (shrink : ∀ {v xs env} {q : Shrinking}, K.H v xs → EnvOk env → Covered env (.shrink q) v xs →
      (q.run c (M.P.swap res shr pw iw) env v).Meets (fun _ v' => K.H v' xs ∧ M.drops v' = M.drops v) (fun _ => False)
        (K.Short env (.shrink q) v xs)) :
    Client c (M.swap res shr pw iw) where
  H := K.H
  EnvOk := EnvOk
  Short := K.Short
  Covered := Covered
  len := K.len
  note := K.note
  push := push
  insert := insert
  insert_out := insert_out
  pushWith := pushWith
  insertWith {v xs env s i} h he hw hc hi := by
    unfold Api.insertWithRun
    rw [Exec.get_bind, Exec.guardedAssert_bind (by rw [show (M.swap res shr pw iw).P.len v = _ from K.len h]; exact hi)]
    exact insertWith h he hw hc hi
  insertWith_out {v xs env s i} h hi := by
    unfold Api.insertWithRun
    rw [Exec.get_bind]
    exact rejectedWith _ _ v (p := i ≤ (M.swap res shr pw iw).P.len v)
      (by rw [show (M.swap res shr pw iw).P.len v = _ from K.len h]; omega) _
  pop := K.pop
  pop_nil := K.pop_nil
  remove h hi hc := K.remove h hi (coveredRemove hc)
  remove_drop h hi hc := K.remove_drop h hi (coveredRemove hc)
  remove_out := K.remove_out
  reserve := reserve
  tryReserve := tryReserve
  shrink := shrink
  get := K.get
  get_out := K.get_out
  store := K.store
  keep := K.keep
  calls h hc := K.calls h (coveredIter hc)
  coveredMut := coveredMut

end

theorem unalignedAll_eq : unalignedAllP (β := β) c T = (unalignedRepairedM c T).P.swap (UVec.tryReserveAdditionalRepaired c)
    (UVec.shrinkToRepaired c) (UVec.pushWithRepaired c) (UVec.insertWithAllRepaired c) := rfl

/-- `UVec.client` with all changes. -/
def UVec.clientAll (c : Cfg) (T : UTy) : Client c (unalignedAllM (β := β) c T) :=
  (UVec.clientRepaired (β := β) True c T).swap (UVec.tryReserveAdditionalRepaired c)
    (UVec.shrinkToRepaired c) (UVec.pushWithRepaired c) (UVec.insertWithAllRepaired c)
    (EnvOk := fun env => env.Valid ∧ env.Exact) (Covered := fun env op _ xs => UVec.CoveredAll c env op xs)
    (coveredRemove := fun hc => hc) (coveredIter := fun _ => trivial) (coveredMut := fun _ => trivial)
    (push := fun {v xs env x} h he hx _ => by
      rw [← unalignedAll_eq, unalignedAllP_reserving, Provider.swap_push]
      refine Res.Meets.mono (repaired_push_unaligned h he.1 he.2 hx) (fun _ _ h => h) ?_ (fun h => .inl ⟨_, _, h⟩)
      rintro v' ⟨h1, h2, h3 | h3⟩
      · exact ⟨⟨h1, h2⟩, .inl ⟨_, _, h3⟩⟩
      · exact ⟨⟨h1, h2⟩, .inr (UVec.tooLarge_mono (Nat.sub_le _ _) h3)⟩)
    (insert := fun {v xs env x i} h he hx _ hi => by
      rw [← unalignedAll_eq, unalignedAllP_reserving, Provider.swap_insert]
      refine Res.Meets.mono (repaired_insert_unaligned_any h he.1 he.2 hx hi) (fun _ _ h => h) ?_ (fun h => .inl ⟨_, _, h⟩)
      rintro v' ⟨h1, h2, h3 | h3⟩
      · exact ⟨⟨h1, h2⟩, .inl ⟨_, _, h3⟩⟩
      · exact ⟨⟨h1, h2⟩, .inr (UVec.tooLarge_mono (Nat.sub_le _ _) h3)⟩)
    (insert_out := fun {v xs env x i} h hi => by
      rw [← unalignedAll_eq, unalignedAllP_reserving, Provider.swap_insert]
      exact (UVec.implReserving True c T).insert_out h _ hi)
    (pushWith := fun {v xs env s} h he hw _ =>
      Src.emplace_meets (f := fun x => xs ++ [x]) hw h (UVec.emplace_short (.inl rfl)) fun md hmd =>
        (UVec.pushWithRepaired_meets h he.1 (fun _ => he.2) hmd).mono
          (fun _ _ h => h.mono (fun _ h => h) (fun _ _ h => ⟨h.1, h.2.1⟩)) (fun _ h => ⟨h.1, h.2.1, h.2.2.2⟩) (fun h => h))
    (insertWith := fun {v xs env s i} h he hw _ hi =>
      Src.emplace_meets (f := fun x => xs.take i ++ x :: xs.drop i) hw h (UVec.emplace_short (.inr ⟨i, rfl⟩)) fun md hmd =>
        (UVec.insertWithAllRepaired_meets h he.1 (fun _ => he.2) hmd i hi).mono
          (fun _ _ h => h.mono (fun _ h => h) (fun _ _ h => ⟨h.1, h.2.1⟩)) (fun _ h => ⟨h.1, h.2.1, h.2.2.2⟩) (fun h => h))
    (reserve := fun {v xs env q} h he hc => by
      rw [← unalignedAll_eq, unalignedAllP_reserving, Provider.swap_run]
      exact ((UVec.implReserving True c T).run_reserve_meets rfl (fun {_ _} h => (UVec.Represents.al h).pos)
        (isAlign_one_of (UVec.Represents.al h)) h ⟨he.1, fun _ => he.2⟩ q hc).mono (fun _ _ h => ⟨h.holds, h.drops⟩)
        (fun _ h => ⟨⟨h.1.holds, h.1.drops⟩, UVec.failing_short_reserving h.2⟩) (fun h => .inl ⟨_, _, h⟩))
    (tryReserve := fun {v xs env q} h he hc => by
      rw [← unalignedAll_eq, unalignedAllP_reserving, Provider.swap_attempt]
      refine ((UVec.implReserving True c T).attempt_meets rfl (fun {_ _} h => (UVec.Represents.al h).pos)
        (isAlign_one_of (UVec.Represents.al h)) h ⟨he.1, fun _ => he.2⟩ q hc).mono ?_
        (fun _ h => ⟨⟨h.2.1.holds, h.2.1.drops⟩, UVec.failing_short_reserving h.2.2⟩) id
      rintro r v' (⟨rfl, h1⟩ | ⟨e, rfl, h1, h2, _⟩)
      · exact ⟨⟨h1.holds, h1.drops⟩, .inl rfl⟩
      · exact ⟨⟨h1.holds, h1.drops⟩, .inr (UVec.failing_short_reserving h2)⟩)
    (shrink := fun {v xs env q} h he hc => by
      rw [← unalignedAll_eq, unalignedAllP_shrinking, Provider.swap_shrink]
      exact (repaired_shrink_unaligned h he.1 he.2 q hc).mono (fun _ _ h => ⟨h.1, h.2.2.2.1⟩) (fun _ h => h) (fun h => h.1))

end
end Verif
