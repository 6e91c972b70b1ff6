import Verif.Proofs.Frame

/-!
# The functions that do not shrink give nothing up
-/

namespace Verif

theorem stdReserve_grows {m cap len add cap' : Nat} {g : Nat → Except TRE Nat} (h : stdReserve m cap len add g = .ok cap') :
    (add ≤ cap - len ∧ cap' = cap) ∨ (cap - len < add ∧ cap < cap') := by
  unfold stdReserve at h
  split at h
  · injection h with h; exact .inl ⟨by assumption, h.symm⟩
  · split at h
    · cases h
    · split at h
      · cases h
      · injection h with h
        refine .inr ⟨by omega, ?_⟩
        subst h
        omega

theorem Heap.copy_block {β : Type} [Inhabited β] {h h' : Heap β} {p src dst n : Nat} (e : h.copy p src dst n = some h') : h'.block = h.block := by
  unfold Heap.copy at e
  split at e
  · injection e with e; subst e; rfl
  · cases e

theorem Heap.write_block {β : Type} [Inhabited β] {h h' : Heap β} {p dst : Nat} {bs : List β} (e : h.write p dst bs = some h') :
    h'.block = h.block := by
  unfold Heap.write at e
  split at e
  · injection e with e; subst e; rfl
  · cases e

theorem Ref.store_block {T : UTy} {β : Type} [Inhabited β] {h h' : Heap β} {r : Ref T} {bs : List β} (e : r.store h bs = some h') :
    h'.block = h.block := by
  unfold Ref.store at e
  split at e
  · exact Heap.write_block e
  · cases e

theorem layoutUnchecked_inv {c : Cfg} {n a : Nat} {l : Layout} (h : layoutUnchecked c n a = some l) :
    l = ⟨n, a⟩ ∧ a ∈ ValidAlign.variants c ∧ n + (a - 1) ≤ c.isizeMax := by
  unfold layoutUnchecked at h
  split at h
  · injection h with h; exact ⟨h.symm, by assumption⟩
  · cases h

theorem Heap.allocate_granted {β X : Type} [Inhabited β] {env : Env X} {h h' : Heap β} {l : Layout} {p n : Nat}
    (e : h.allocate env l = some (h', p, n)) : l.size ≤ n := by
  unfold Heap.allocate at e
  split at e
  · cases e
  · injection e with e; injection e with _ e; injection e with _ e; omega

theorem Heap.grow_granted {β X : Type} [Inhabited β] {env : Env X} {h h' : Heap β} {q : Nat} {old new : Layout} {p n : Nat}
    (e : h.grow env q old new = some (some (h', p, n))) : old.size ≤ new.size ∧ new.size ≤ n := by
  unfold Heap.grow at e
  split at e
  · rename_i hf
    split at e
    · cases e
    · injection e with e; injection e with e; injection e with _ e; injection e with _ e
      exact ⟨hf.2, by omega⟩
  · cases e

/-! ## Dynamically aligned elements -/
namespace UVec
variable {T : UTy} {β : Type} [Inhabited β] {c : Cfg} {a : Nat}

/-- `NoLoss` for this implementation. -/
structure Lossless (a : Nat) (v v' : UVec T β) : Prop where
  capacity : v.elemsCap ≤ v'.elemsCap
  bytes : v.byteCap ≤ v'.byteCap
  align : v.align ≤ v'.align
  asked : v'.align ≤ max v.align a
  stays : v'.byteCap = v.byteCap → v'.align = v.align → v'.heap.block = v.heap.block ∧ (a ≤ v.align → v'.ptr = v.ptr)

omit [Inhabited β] in
theorem Lossless.pre : Pre (Lossless a : UVec T β → UVec T β → Prop) where
  refl _ := ⟨Nat.le_refl _, Nat.le_refl _, Nat.le_refl _, Nat.le_max_left _ _, fun _ _ => ⟨rfl, fun _ => rfl⟩⟩
  trans h h' := by
    have h1 := h.bytes
    have h2 := h'.bytes
    have h3 := h.align
    have h4 := h'.align
    have h5 := h.asked
    have h6 := h'.asked
    refine ⟨Nat.le_trans h.capacity h'.capacity, by omega, by omega, by omega, fun e e' => ?_⟩
    have h7 := h'.stays (by omega) (by omega)
    have h8 := h.stays (by omega) (by omega)
    exact ⟨h7.1.trans h8.1, fun hb => (h7.2 (by omega)).trans (h8.2 hb)⟩

open Exec.Keeps

omit [Inhabited β] in
/-- A change of the records or of the log is none. -/
theorem Lossless.same {v v' : UVec T β} (h1 : v'.elemsCap = v.elemsCap) (h2 : v'.byteCap = v.byteCap) (h3 : v'.align = v.align)
    (h4 : v'.ptr = v.ptr) (h5 : v'.heap.block = v.heap.block) : Lossless a v v' :=
  ⟨by omega, by omega, by omega, by omega, fun _ _ => ⟨h5, fun _ => h4⟩⟩

theorem memmove_keeps (p src dst n : Nat) : (memmove p src dst n : Exec (UVec T β) Unit).Keeps (Lossless a) (fun _ => True) :=
  getBind fun v => bindAt Lossless.pre (orUb Lossless.pre (Q := fun h => h.block = v.heap.block) (fun _ h => Heap.copy_block h) v) fun h _ e => by
    cases hc : v.heap.copy p src dst n with
    | none => rw [hc] at e; cases e
    | some h' =>
      rw [hc] at e
      cases e
      exact ⟨Lossless.same rfl rfl rfl rfl (Heap.copy_block hc), trivial⟩

theorem memwrite_keeps (p dst : Nat) (bs : List β) : (memwrite p dst bs : Exec (UVec T β) Unit).Keeps (Lossless a) (fun _ => True) :=
  getBind fun v => bindAt Lossless.pre (orUb Lossless.pre (Q := fun h => h.block = v.heap.block) (fun _ h => Heap.write_block h) v) fun h _ e => by
    cases hc : v.heap.write p dst bs with
    | none => rw [hc] at e; cases e
    | some h' =>
      rw [hc] at e
      cases e
      exact ⟨Lossless.same rfl rfl rfl rfl (Heap.write_block hc), trivial⟩

omit [Inhabited β] in
theorem setElems_keeps {α : Type} {Q : α → Prop} (es : UVec T β → List (Info T.Meta)) {f : Unit → Exec (UVec T β) α} {v : UVec T β}
    (h : ∀ u, (f u).Keeps (Lossless a) Q) : ((Exec.set { v with elems := es v } >>= f) v).Leaves (Lossless a v) Q :=
  bindAt Lossless.pre (m := Exec.set _) (Q := fun _ => True) ⟨Lossless.same rfl rfl rfl rfl rfl, trivial⟩ fun u t _ => h u t

omit [Inhabited β] in
theorem infoInsert_keeps (i : Nat) (e : Info T.Meta) : (infoInsert i e : Exec (UVec T β) Unit).Keeps (Lossless a) (fun _ => True) :=
  getBind fun v => bindAt Lossless.pre (require Lossless.pre _ v) fun _ t e => by
    unfold Exec.require at e
    split at e
    · cases e; exact ⟨Lossless.same rfl rfl rfl rfl rfl, trivial⟩
    · cases e

omit [Inhabited β] in
theorem infoPush_keeps (e : Info T.Meta) : (infoPush e : Exec (UVec T β) Unit).Keeps (Lossless a) (fun _ => True) :=
  getBind fun v => bindAt Lossless.pre (require Lossless.pre _ v) fun _ t e => by
    unfold Exec.require at e
    split at e
    · cases e; exact ⟨Lossless.same rfl rfl rfl rfl rfl, trivial⟩
    · cases e

omit [Inhabited β] in
theorem adjustFrom_keeps (i : Nat) (f : List (Info T.Meta) → Option (List (Info T.Meta))) :
    (adjustFrom i f : Exec (UVec T β) Unit).Keeps (Lossless a) (fun _ => True) :=
  getBind fun v => bindAt Lossless.pre (require Lossless.pre _ v) fun _ t e => by
    unfold Exec.require at e
    split at e
    · cases e
      cases hf : f (v.elems.drop i) with
      | none => trivial
      | some es => exact ⟨Lossless.same rfl rfl rfl rfl rfl, trivial⟩
    · cases e

theorem dropInPlace_keeps (env : Env (Val T β)) (p off : Nat) (md : T.Meta) :
    (dropInPlace env p off md).Keeps (Lossless a) (fun _ => True) :=
  seq Lossless.pre (get Lossless.pre) fun _ => seq Lossless.pre (orUb Lossless.pre fun _ _ => trivial) fun _ =>
    seq Lossless.pre (modify fun _ => Lossless.same rfl rfl rfl rfl rfl) fun _ => ite (panic Lossless.pre) (unit Lossless.pre)

omit [Inhabited β] in
theorem tryReserve_keeps (env : Env (Val T β)) (n : Nat) : (tryReserve c env n).Keeps (Lossless a) (fun _ => True) :=
  getBind fun v => by
    cases h : stdReserve c.infoMax v.elemsCap v.len n env.infoGrow with
    | error e => exact ⟨Lossless.pre.refl v, trivial⟩
    | ok cap =>
      refine ⟨⟨?_, Nat.le_refl _, Nat.le_refl _, Nat.le_max_left _ _, fun _ _ => ⟨rfl, fun _ => rfl⟩⟩, trivial⟩
      have := stdReserve_grows h
      show v.elemsCap ≤ cap
      omega

/-- `realign_up` leaves everything but the records and the bytes alone, and does not panic where it is called. -/
theorem realignUp_leaves {b : Nat} {v : UVec T β} (h : v.len > 1 ∧ b > v.align) :
    ∀ r, realignUp c b v = r → match r with
      | .ok _ v' => v'.elemsCap = v.elemsCap ∧ v'.byteCap = v.byteCap ∧ v'.align = v.align ∧ v'.ptr = v.ptr ∧ v'.heap.block = v.heap.block
      | .panic _ => False
      | _ => True := by
  have mv : ∀ (ws : List (Info T.Meta × Info T.Meta)) (s : Nat) (h h' : Heap β),
      realignUpMove c v.align b v.ptr ws s h = some h' → h'.block = h.block := by
    intro ws
    induction ws with
    | nil => intro s h h' e; injection e with e; rw [e]
    | cons w ws ih =>
      intro s h h' e
      unfold realignUpMove at e
      simp only [Option.bind_eq_bind, Option.bind_eq_some_iff] at e
      obtain ⟨_, _, _, _, _, _, _, _, _, _, _, _, _, _, h1, e1, e2⟩ := e
      rw [ih _ _ _ e2, Heap.copy_block e1]
  rintro r rfl
  unfold realignUp
  rw [Exec.get_bind, Exec.bind_ok (Exec.debugAssert_pos h v)]
  cases h1 : realignUpOffsets c v.align b v.elems 0 with
  | none => trivial
  | some p =>
    obtain ⟨es, fin⟩ := p
    rw [Exec.bind_ok (Exec.orUb_some _ v)]
    dsimp only
    cases h2 : realignUpMove c v.align b v.ptr (windows es).reverse fin v.heap with
    | none => trivial
    | some h' => exact ⟨rfl, rfl, rfl, rfl, mv _ _ _ _ h2⟩

theorem growStorage_granted {env : Env (Val T β)} {v : UVec T β} {l : Layout} {h : Heap β} {p n : Nat}
    (e : v.growStorage c env l = some (some (h, p, n))) : l.size ≤ n ∧ v.byteCap ≤ l.size := by
  unfold growStorage at e
  split at e
  · injection e with e
    have := Heap.allocate_granted e
    exact ⟨this, by omega⟩
  · simp only [Option.bind_eq_bind, Option.bind_eq_some_iff] at e
    obtain ⟨o, ho, e⟩ := e
    obtain ⟨rfl, _⟩ := layoutUnchecked_inv ho
    have := Heap.grow_granted e
    exact ⟨this.2, this.1⟩

theorem newSquishedTo_ge {n b m k : Nat} (h : VSU.newSquishedTo c n b = some m) (h1 : k ≤ n) (h2 : k + (b - 1) ≤ c.isizeMax) : k ≤ m := by
  unfold VSU.newSquishedTo VSU.maxForAlign ValidAlign.minus1 uncheckedSub VSU.newUnchecked at h
  simp only [Option.bind_eq_bind, Option.bind_eq_some_iff] at h
  obtain ⟨mx, ⟨m1, e1, d, e2, e3⟩, e4⟩ := h
  split at e1 <;> cases e1
  split at e2 <;> cases e2
  split at e3 <;> cases e3
  split at e4
  · split at e4 <;> cases e4
    exact h1
  · cases e4; omega

theorem reserveCommit_keeps (env : Env (Val T β)) (n b cost : Nat) (v : UVec T β) (hb : v.align ≤ b) (hb' : b ≤ max v.align a) :
    (reserveCommit c env n b cost v).Leaves (Lossless a v) (fun _ => True) := by
  unfold reserveCommit
  rw [Exec.get_bind]
  dsimp only
  cases h1 : newByteCap c v.byteCap cost n b with
  | none => trivial
  | some o =>
    rw [Exec.bind_ok (Exec.orUb_some _ v)]
    cases o with
    | none => exact ⟨Lossless.pre.refl v, trivial⟩
    | some newCap =>
      dsimp only
      by_cases h2 : v.align < b ∨ v.byteCap < newCap
      · rw [if_pos h2]
        by_cases h3 : newCap > 0
        · rw [if_pos h3]
          cases h4 : layoutUnchecked c newCap b with
          | none => trivial
          | some l =>
            obtain ⟨rfl, _, h5⟩ := layoutUnchecked_inv h4
            rw [Exec.bind_ok (Exec.orUb_some _ v)]
            cases h6 : v.growStorage c env ⟨newCap, b⟩ with
            | none => trivial
            | some o =>
              rw [Exec.bind_ok (Exec.orUb_some _ v)]
              cases o with
              | none => exact ⟨Lossless.pre.refl v, trivial⟩
              | some r =>
                obtain ⟨h, addr, granted⟩ := r
                obtain ⟨h7, h8⟩ := growStorage_granted h6
                dsimp only at h7 h8 ⊢
                cases h9 : VSU.newSquishedTo c granted b with
                | none => trivial
                | some cap' =>
                  have h10 := newSquishedTo_ge h9 h7 h5
                  rw [Exec.bind_ok (Exec.orUb_some _ v), Exec.modify_bind]
                  by_cases h11 : v.align < b
                  · rw [if_pos h11]
                    by_cases h12 : v.len > 1
                    · rw [if_pos h12]
                      have h13 := realignUp_leaves (c := c) (b := b) (v := { v with byteCap := cap', ptr := addr, heap := h }) ⟨h12, h11⟩ _ rfl
                      cases h14 : realignUp c b { v with byteCap := cap', ptr := addr, heap := h } with
                      | ok u w =>
                        rw [h14] at h13
                        obtain ⟨e1, e2, e3, e4, e5⟩ := h13
                        dsimp only at e1 e2 e3 e4 e5
                        rw [Exec.bind_ok h14]
                        refine ⟨⟨?_, ?_, hb, hb', fun _ e => ?_⟩, trivial⟩
                        · show v.elemsCap ≤ w.elemsCap
                          omega
                        · show v.byteCap ≤ w.byteCap
                          omega
                        · have e : b = v.align := e
                          omega
                      | panic w => rw [h14] at h13; exact h13.elim
                      | abort => rw [Exec.bind_abort h14]; trivial
                      | ub => rw [Exec.bind_ub h14]; trivial
                    · rw [if_neg h12]
                      refine ⟨⟨Nat.le_refl _, ?_, hb, hb', fun _ e => ?_⟩, trivial⟩
                      · show v.byteCap ≤ cap'
                        omega
                      · have e : b = v.align := e
                        omega
                  · rw [if_neg h11]
                    refine ⟨⟨Nat.le_refl _, ?_, Nat.le_refl _, Nat.le_max_left _ _, fun e _ => ?_⟩, trivial⟩
                    · show v.byteCap ≤ cap'
                      omega
                    · have e : cap' = v.byteCap := e
                      omega
        · rw [if_neg h3]
          refine ⟨⟨Nat.le_refl _, Nat.le_refl _, Nat.le_refl _, Nat.le_max_left _ _, fun _ _ => ⟨rfl, fun h => ?_⟩⟩, trivial⟩
          show b = v.ptr
          omega
      · rw [if_neg h2]
        exact ⟨Lossless.pre.refl v, trivial⟩


theorem addBytes_keeps (env : Env (Val T β)) (n al : Nat) (hal : al ≤ a) :
    (tryReserveAdditionalBytesAlign c env n al).Keeps (Lossless a) (fun _ => True) := by
  intro v
  unfold tryReserveAdditionalBytesAlign
  rw [Exec.get_bind]
  cases h1 : v.alignedByteLen c with
  | none => trivial
  | some len =>
    rw [Exec.bind_ok (Exec.orUb_some _ v)]
    by_cases h2 : v.align < max v.align al
    · rw [if_pos h2, Exec.bind_ok (Exec.debugAssert_pos (Nat.le_of_lt h2) v)]
      cases h3 : v.lenAfterRealignUp c (max v.align al) with
      | none => trivial
      | some o =>
        rw [Exec.bind_ok (Exec.orUb_some _ v)]
        cases o with
        | none => exact ⟨Lossless.pre.refl v, trivial⟩
        | some r =>
          dsimp only
          cases h4 : VSU.uncheckedSub c r len with
          | none => trivial
          | some cost =>
            rw [Exec.bind_ok (Exec.orUb_some _ v)]
            exact reserveCommit_keeps env n _ cost v (by omega) (by omega)
    · rw [if_neg h2]
      by_cases h3 : n = 0
      · rw [if_pos h3]; exact ⟨Lossless.pre.refl v, trivial⟩
      · rw [if_neg h3]
        cases h4 : VSU.uncheckedSub c len len with
        | none => trivial
        | some cost =>
          rw [Exec.bind_ok (Exec.orUb_some _ v)]
          exact reserveCommit_keeps env n _ cost v (by omega) (by omega)

/-- The frequent steps that leave the state alone. -/
local macro "stay" : term => `(orUb Lossless.pre fun _ _ => trivial)

theorem insertUnchecked_keeps (i : Nat) (x : Val T β) : (insertUnchecked c i x).Keeps (Lossless a) (fun _ => True) :=
  seq Lossless.pre (get Lossless.pre) fun _ => seq Lossless.pre (debugAssert Lossless.pre _ _) fun _ => seq Lossless.pre (debugAssert Lossless.pre _ _) fun _ =>
  seq Lossless.pre stay fun _ => seq Lossless.pre stay fun _ => seq Lossless.pre (debugAssert Lossless.pre _ _) fun _ =>
  seq Lossless.pre (debugAssert Lossless.pre _ _) fun _ => seq Lossless.pre stay fun _ => seq Lossless.pre stay fun _ =>
  seq Lossless.pre (require Lossless.pre _) fun _ => seq Lossless.pre (memmove_keeps _ _ _ _) fun _ => seq Lossless.pre (memwrite_keeps _ _ _) fun _ =>
  seq Lossless.pre (adjustFrom_keeps _ _) fun _ => seq Lossless.pre stay fun _ => infoInsert_keeps _ _

theorem pushUnchecked_keeps (x : Val T β) : (pushUnchecked c x).Keeps (Lossless a) (fun _ => True) :=
  seq Lossless.pre (get Lossless.pre) fun _ => seq Lossless.pre (debugAssert Lossless.pre _ _) fun _ => seq Lossless.pre stay fun _ =>
  seq Lossless.pre (debugAssert Lossless.pre _ _) fun _ => seq Lossless.pre (debugAssert Lossless.pre _ _) fun _ =>
  seq Lossless.pre (memwrite_keeps _ _ _) fun _ => seq Lossless.pre stay fun _ => infoPush_keeps _

theorem reserveForEmplace_keeps (env : Env (Val T β)) (l : Layout) (hl : l.align ≤ a) :
    (reserveForEmplace c env l).Keeps (Lossless a) (fun _ => True) := by
  unfold reserveForEmplace
  refine seq Lossless.pre (tryReserve_keeps env 1) fun r => ?_
  split
  · exact unwrapReserve_keeps Lossless.pre _
  · exact seq Lossless.pre (addBytes_keeps env _ _ hl) fun r => unwrapReserve_keeps Lossless.pre r

theorem pushWith_keeps (env : Env (Val T β)) (l : Layout) (md : T.Meta) (hl : l.align ≤ a) :
    (pushWith c env l md).Keeps (Lossless a) (fun p => p.Keeps (Lossless a)) :=
  seq Lossless.pre stay fun _ => seq Lossless.pre (reserveForEmplace_keeps env l hl) fun _ => seq Lossless.pre (get Lossless.pre) fun _ =>
  seq Lossless.pre stay fun _ => seq Lossless.pre (require Lossless.pre _) fun _ => pure Lossless.pre
    ⟨fun _ => seq Lossless.pre (require Lossless.pre _) fun _ => memwrite_keeps _ _ _, seq Lossless.pre stay fun _ => infoPush_keeps _, unit Lossless.pre⟩

theorem insertWith_keeps (env : Env (Val T β)) (i : Nat) (l : Layout) (md : T.Meta) (hl : l.align ≤ a) :
    (insertWithUnchecked c env i l md).Keeps (Lossless a) (fun p => p.Keeps (Lossless a)) :=
  seq Lossless.pre stay fun _ => seq Lossless.pre (reserveForEmplace_keeps env l hl) fun _ => seq Lossless.pre (get Lossless.pre) fun _ =>
  seq Lossless.pre stay fun _ => seq Lossless.pre stay fun _ => seq Lossless.pre (require Lossless.pre _) fun _ => seq Lossless.pre stay fun _ =>
  seq Lossless.pre (require Lossless.pre _) fun _ => seq Lossless.pre (memmove_keeps _ _ _ _) fun _ => pure Lossless.pre
    ⟨fun _ => seq Lossless.pre (require Lossless.pre _) fun _ => memwrite_keeps _ _ _,
      seq Lossless.pre (adjustFrom_keeps _ _) fun _ => seq Lossless.pre stay fun _ => infoInsert_keeps _ _, memmove_keeps _ _ _ _⟩

omit [Inhabited β] in
theorem copyOut_keeps (p off n : Nat) (v : UVec T β) : (copyOut p off n v).Leaves (Lossless a v) := by
  unfold copyOut
  cases v.heap.read p off n with
  | some bs => exact Lossless.pre.refl v
  | none => trivial

theorem popInto_keeps (env : Env (Val T β)) : Exec.Keeps (Lossless a) (fun st : Started (UVec T β) T β => st.Keeps (Lossless a)) (popIntoUnchecked c env) :=
  seq Lossless.pre (get Lossless.pre) fun _ => seq Lossless.pre (debugAssert Lossless.pre _ _) fun _ => seq Lossless.pre stay fun _ =>
  seq Lossless.pre (modify fun _ => Lossless.same rfl rfl rfl rfl rfl) fun _ => seq Lossless.pre (get Lossless.pre) fun _ =>
  seq Lossless.pre stay fun _ => seq Lossless.pre stay fun _ => seq Lossless.pre (require Lossless.pre _) fun _ => seq Lossless.pre stay fun _ =>
  seq Lossless.pre stay fun _ => pure Lossless.pre ⟨copyOut_keeps _ _ _, dropInPlace_keeps env _ _ _, unit Lossless.pre⟩

theorem removeInto_keeps (env : Env (Val T β)) (i : Nat) :
    Exec.Keeps (Lossless a) (fun st : Started (UVec T β) T β => st.Keeps (Lossless a)) (removeIntoUnchecked c env i) :=
  seq Lossless.pre (get Lossless.pre) fun _ => seq Lossless.pre (debugAssert Lossless.pre _ _) fun _ => seq Lossless.pre stay fun _ =>
  seq Lossless.pre stay fun _ => seq Lossless.pre stay fun _ => seq Lossless.pre stay fun _ => seq Lossless.pre (require Lossless.pre _) fun _ =>
  seq Lossless.pre stay fun _ => seq Lossless.pre stay fun _ => pure Lossless.pre
    ⟨copyOut_keeps _ _ _, dropInPlace_keeps env _ _ _, getBind fun v => bindAt Lossless.pre (assert Lossless.pre _ v) fun _ t e => by
      unfold Exec.assert at e
      split at e
      · cases e
        refine setElems_keeps (fun v => v.elems.eraseIdx i) fun _ => ?_
        exact seq Lossless.pre (adjustFrom_keeps _ _) fun _ => seq Lossless.pre (get Lossless.pre) fun _ => seq Lossless.pre stay fun _ =>
          seq Lossless.pre (require Lossless.pre _) fun _ => memmove_keeps _ _ _ _
      · cases e⟩

theorem provider_keeps : (unalignedP c T : Provider (UVec T β) T β).Keeps (Lossless a) a where
  alignNew h := by
    have h : ValidAlign.new _ = some _ := h
    unfold ValidAlign.new at h
    split at h
    · injection h with h; exact h.symm
    · cases h
  tryReserve := tryReserve_keeps
  tryReserveExact := tryReserve_keeps
  addBytes := addBytes_keeps
  insertUnchecked := insertUnchecked_keeps
  insertWith := insertWith_keeps
  removeInto := removeInto_keeps
  pushUnchecked := pushUnchecked_keeps
  pushWith := pushWith_keeps
  popInto := popInto_keeps

theorem machine_keeps : (unalignedM c T : Machine (UVec T β) T β).Keeps (Lossless a) where
  note _ _ := Lossless.same rfl rfl rfl rfl rfl
  store r bs := getBind fun v => by
    cases hc : r.store v.heap bs with
    | none => rw [Exec.bind_ub (by rfl)]; trivial
    | some h' => exact ⟨Lossless.same rfl rfl rfl rfl (Ref.store_block hc), trivial⟩

theorem Lossless.noLoss {v v' : UVec T β} (h : Lossless a v v') :
    NoLoss (unalignedP c T) (fun v : UVec T β => v.heap.block) (fun v => v.ptr) a v v' :=
  ⟨h.capacity, fun _ _ e e' => by cases e; cases e'; exact h.bytes, h.align, h.asked, fun _ e e' => h.stays (by injection e) e'⟩

end UVec

/-! ## Statically aligned elements -/
namespace AVec
variable {A : ATy} {β : Type} [Inhabited β] {c : Cfg} {a : Nat}

/-- `NoLoss` for this implementation. -/
structure Lossless (v v' : AVec A β) : Prop where
  capacity : v.elemsCap ≤ v'.elemsCap
  bytes : v.byteCap ≤ v'.byteCap
  stays : v'.byteCap = v.byteCap → v'.heap.block = v.heap.block ∧ v'.ptr = v.ptr

omit [Inhabited β] in
theorem Lossless.pre : Pre (Lossless : AVec A β → AVec A β → Prop) where
  refl _ := ⟨Nat.le_refl _, Nat.le_refl _, fun _ => ⟨rfl, rfl⟩⟩
  trans h h' := by
    have h1 := h.bytes
    have h2 := h'.bytes
    refine ⟨Nat.le_trans h.capacity h'.capacity, by omega, fun e => ?_⟩
    have h7 := h'.stays (by omega)
    have h8 := h.stays (by omega)
    exact ⟨h7.1.trans h8.1, h7.2.trans h8.2⟩

open Exec.Keeps

omit [Inhabited β] in
theorem Lossless.same {v v' : AVec A β} (h1 : v'.elemsCap = v.elemsCap) (h2 : v'.byteCap = v.byteCap)
    (h4 : v'.ptr = v.ptr) (h5 : v'.heap.block = v.heap.block) : Lossless v v' :=
  ⟨by omega, by omega, fun _ => ⟨h5, h4⟩⟩

theorem memmove_keeps (p src dst n : Nat) : (memmove p src dst n : Exec (AVec A β) Unit).Keeps (Lossless) (fun _ => True) :=
  getBind fun v => bindAt Lossless.pre (orUb Lossless.pre (Q := fun h => h.block = v.heap.block) (fun _ h => Heap.copy_block h) v) fun h _ e => by
    cases hc : v.heap.copy p src dst n with
    | none => rw [hc] at e; cases e
    | some h' =>
      rw [hc] at e
      cases e
      exact ⟨Lossless.same rfl rfl rfl (Heap.copy_block hc), trivial⟩

theorem memwrite_keeps (p dst : Nat) (bs : List β) : (memwrite p dst bs : Exec (AVec A β) Unit).Keeps (Lossless) (fun _ => True) :=
  getBind fun v => bindAt Lossless.pre (orUb Lossless.pre (Q := fun h => h.block = v.heap.block) (fun _ h => Heap.write_block h) v) fun h _ e => by
    cases hc : v.heap.write p dst bs with
    | none => rw [hc] at e; cases e
    | some h' =>
      rw [hc] at e
      cases e
      exact ⟨Lossless.same rfl rfl rfl (Heap.write_block hc), trivial⟩

omit [Inhabited β] in
theorem setElems_keeps {α : Type} {Q : α → Prop} (es : AVec A β → List (Info A.R)) {f : Unit → Exec (AVec A β) α} {v : AVec A β}
    (h : ∀ u, (f u).Keeps (Lossless) Q) : ((Exec.set { v with elems := es v } >>= f) v).Leaves (Lossless v) Q :=
  bindAt Lossless.pre (m := Exec.set _) (Q := fun _ => True) ⟨Lossless.same rfl rfl rfl rfl, trivial⟩ fun u t _ => h u t

omit [Inhabited β] in
theorem infoInsert_keeps (i : Nat) (e : Info A.R) : (infoInsert i e : Exec (AVec A β) Unit).Keeps (Lossless) (fun _ => True) :=
  getBind fun v => bindAt Lossless.pre (require Lossless.pre _ v) fun _ t e => by
    unfold Exec.require at e
    split at e
    · cases e; exact ⟨Lossless.same rfl rfl rfl rfl, trivial⟩
    · cases e

omit [Inhabited β] in
theorem infoPush_keeps (e : Info A.R) : (infoPush e : Exec (AVec A β) Unit).Keeps (Lossless) (fun _ => True) :=
  getBind fun v => bindAt Lossless.pre (require Lossless.pre _ v) fun _ t e => by
    unfold Exec.require at e
    split at e
    · cases e; exact ⟨Lossless.same rfl rfl rfl rfl, trivial⟩
    · cases e

omit [Inhabited β] in
theorem adjustFrom_keeps (i : Nat) (f : List (Info A.R) → Option (List (Info A.R))) :
    (adjustFrom i f : Exec (AVec A β) Unit).Keeps (Lossless) (fun _ => True) :=
  getBind fun v => bindAt Lossless.pre (require Lossless.pre _ v) fun _ t e => by
    unfold Exec.require at e
    split at e
    · cases e
      cases hf : f (v.elems.drop i) with
      | none => trivial
      | some es => exact ⟨Lossless.same rfl rfl rfl rfl, trivial⟩
    · cases e

theorem dropInPlace_keeps (env : Env (Val A.ty β)) (p off : Nat) (md : A.ty.Meta) :
    (dropInPlace env p off md).Keeps (Lossless) (fun _ => True) :=
  seq Lossless.pre (get Lossless.pre) fun _ => seq Lossless.pre (orUb Lossless.pre fun _ _ => trivial) fun _ =>
    seq Lossless.pre (modify fun _ => Lossless.same rfl rfl rfl rfl) fun _ => ite (panic Lossless.pre) (unit Lossless.pre)

omit [Inhabited β] in
theorem tryReserve_keeps (env : Env (Val A.ty β)) (n : Nat) : (tryReserve c env n).Keeps (Lossless) (fun _ => True) :=
  getBind fun v => by
    cases h : stdReserve c.infoMax v.elemsCap v.len n env.infoGrow with
    | error e => exact ⟨Lossless.pre.refl v, trivial⟩
    | ok cap =>
      refine ⟨⟨?_, Nat.le_refl _, fun _ => ⟨rfl, rfl⟩⟩, trivial⟩
      have := stdReserve_grows h
      show v.elemsCap ≤ cap
      omega

theorem growStorage_granted {env : Env (Val A.ty β)} {v : AVec A β} {l : Layout} {h : Heap β} {p n : Nat}
    (e : v.growStorage c env l = some (some (h, p, n))) : l.size ≤ n ∧ v.byteCap ≤ l.size := by
  unfold growStorage at e
  split at e
  · injection e with e
    have := Heap.allocate_granted e
    exact ⟨this, by omega⟩
  · simp only [Option.bind_eq_bind, Option.bind_eq_some_iff] at e
    obtain ⟨o, ho, e⟩ := e
    obtain ⟨rfl, _⟩ := layoutUnchecked_inv ho
    have := Heap.grow_granted e
    exact ⟨this.2, this.1⟩

theorem addBytes_keeps (env : Env (Val A.ty β)) (n : Nat) :
    (tryReserveAdditionalBytes c env n).Keeps (Lossless (A := A)) (fun _ => True) := by
  intro v
  unfold tryReserveAdditionalBytes
  rw [Exec.get_bind]
  by_cases h1 : n > 0
  · rw [if_pos h1]
    cases h2 : (checkedAdd c v.byteCap n).bind (VS.new c A.ALIGN) with
    | none => exact ⟨Lossless.pre.refl v, trivial⟩
    | some newCap =>
      have h3 : newCap = v.byteCap + n ∧ newCap ≤ VS.max c A.ALIGN := by
        rw [Option.bind_eq_some_iff] at h2
        obtain ⟨m, e1, e2⟩ := h2
        unfold checkedAdd at e1
        unfold VS.new at e2
        split at e1 <;> cases e1
        split at e2 <;> cases e2
        exact ⟨rfl, by assumption⟩
      dsimp only
      cases h4 : layoutUnchecked c newCap A.ALIGN with
      | none => trivial
      | some l =>
        obtain ⟨rfl, _, h5⟩ := layoutUnchecked_inv h4
        rw [Exec.bind_ok (Exec.orUb_some _ v)]
        cases h6 : v.growStorage c env ⟨newCap, A.ALIGN⟩ with
        | none => trivial
        | some o =>
          rw [Exec.bind_ok (Exec.orUb_some _ v)]
          cases o with
          | none => exact ⟨Lossless.pre.refl v, trivial⟩
          | some r =>
            obtain ⟨h, addr, granted⟩ := r
            obtain ⟨h7, h8⟩ := growStorage_granted h6
            dsimp only at h7 h8 ⊢
            have h9 : newCap ≤ VS.newSquished c A.ALIGN granted := by
              unfold VS.newSquished
              split
              · exact h7
              · exact h3.2
            refine ⟨⟨Nat.le_refl _, ?_, fun e => ?_⟩, trivial⟩
            · show v.byteCap ≤ VS.newSquished c A.ALIGN granted
              omega
            · have e : VS.newSquished c A.ALIGN granted = v.byteCap := e
              omega
  · rw [if_neg h1]
    exact ⟨Lossless.pre.refl v, trivial⟩

/-- The frequent steps that leave the state alone. -/
local macro "stay" : term => `(orUb Lossless.pre fun _ _ => trivial)

theorem insertUnchecked_keeps (i : Nat) (x : Val A.ty β) : (insertUnchecked c i x).Keeps (Lossless (A := A)) (fun _ => True) :=
  seq Lossless.pre (get Lossless.pre) fun _ => seq Lossless.pre stay fun _ => seq Lossless.pre (debugAssert Lossless.pre _ _) fun _ => seq Lossless.pre (debugAssert Lossless.pre _ _) fun _ =>
  seq Lossless.pre stay fun _ => seq Lossless.pre stay fun _ =>
  seq Lossless.pre (require Lossless.pre _) fun _ => seq Lossless.pre (memmove_keeps _ _ _ _) fun _ => seq Lossless.pre (memwrite_keeps _ _ _) fun _ =>
  seq Lossless.pre (adjustFrom_keeps _ _) fun _ => seq Lossless.pre stay fun _ => infoInsert_keeps _ _

theorem pushUnchecked_keeps (x : Val A.ty β) : (pushUnchecked c x).Keeps (Lossless (A := A)) (fun _ => True) :=
  seq Lossless.pre (get Lossless.pre) fun _ => seq Lossless.pre stay fun _ => seq Lossless.pre (debugAssert Lossless.pre _ _) fun _ =>
  seq Lossless.pre (debugAssert Lossless.pre _ _) fun _ =>
  seq Lossless.pre (memwrite_keeps _ _ _) fun _ => seq Lossless.pre stay fun _ => infoPush_keeps _

theorem reserveForEmplace_keeps (env : Env (Val A.ty β)) (l : Layout) :
    (reserveForEmplace c env l).Keeps (Lossless) (fun _ => True) := by
  unfold reserveForEmplace
  refine seq Lossless.pre (tryReserve_keeps env 1) fun r => ?_
  split
  · exact unwrapReserve_keeps Lossless.pre _
  · exact seq Lossless.pre (addBytes_keeps env _) fun r => unwrapReserve_keeps Lossless.pre r

theorem pushWith_keeps (env : Env (Val A.ty β)) (l : Layout) (md : A.ty.Meta) :
    (pushWith c env l md).Keeps Lossless (fun p => p.Keeps Lossless) :=
  seq Lossless.pre stay fun _ => seq Lossless.pre (reserveForEmplace_keeps env l) fun _ => seq Lossless.pre (get Lossless.pre) fun _ =>
  seq Lossless.pre (require Lossless.pre _) fun _ => pure Lossless.pre
    ⟨fun _ => seq Lossless.pre (require Lossless.pre _) fun _ => memwrite_keeps _ _ _, seq Lossless.pre stay fun _ => infoPush_keeps _, unit Lossless.pre⟩

theorem insertWith_keeps (env : Env (Val A.ty β)) (i : Nat) (l : Layout) (md : A.ty.Meta) :
    (insertWithUnchecked c env i l md).Keeps Lossless (fun p => p.Keeps Lossless) :=
  seq Lossless.pre stay fun _ => seq Lossless.pre (reserveForEmplace_keeps env l) fun _ => seq Lossless.pre (get Lossless.pre) fun _ =>
  seq Lossless.pre stay fun _ => seq Lossless.pre (require Lossless.pre _) fun _ => seq Lossless.pre stay fun _ =>
  seq Lossless.pre (require Lossless.pre _) fun _ => seq Lossless.pre (memmove_keeps _ _ _ _) fun _ => pure Lossless.pre
    ⟨fun _ => seq Lossless.pre (require Lossless.pre _) fun _ => memwrite_keeps _ _ _,
      seq Lossless.pre (adjustFrom_keeps _ _) fun _ => seq Lossless.pre stay fun _ => infoInsert_keeps _ _, memmove_keeps _ _ _ _⟩

omit [Inhabited β] in
theorem copyOut_keeps (p off n : Nat) (v : AVec A β) : (copyOut p off n v).Leaves (Lossless v) := by
  unfold copyOut
  cases v.heap.read p off n with
  | some bs => exact Lossless.pre.refl v
  | none => trivial

theorem popInto_keeps (env : Env (Val A.ty β)) : Exec.Keeps Lossless (fun st : Started (AVec A β) A.ty β => st.Keeps Lossless) (popIntoUnchecked c env) :=
  seq Lossless.pre (get Lossless.pre) fun _ => seq Lossless.pre (debugAssert Lossless.pre _ _) fun _ => seq Lossless.pre stay fun _ =>
  seq Lossless.pre (modify fun _ => Lossless.same rfl rfl rfl rfl) fun _ => seq Lossless.pre (get Lossless.pre) fun _ =>
  seq Lossless.pre stay fun _ => seq Lossless.pre (require Lossless.pre _) fun _ => seq Lossless.pre stay fun _ =>
  pure Lossless.pre ⟨copyOut_keeps _ _ _, dropInPlace_keeps env _ _ _, unit Lossless.pre⟩

theorem removeInto_keeps (env : Env (Val A.ty β)) (i : Nat) :
    Exec.Keeps (Lossless) (fun st : Started (AVec A β) A.ty β => st.Keeps (Lossless)) (removeIntoUnchecked c env i) :=
  seq Lossless.pre (get Lossless.pre) fun _ => seq Lossless.pre (debugAssert Lossless.pre _ _) fun _ => seq Lossless.pre stay fun _ =>
  seq Lossless.pre stay fun _ => seq Lossless.pre stay fun _ => seq Lossless.pre (require Lossless.pre _) fun _ =>
  seq Lossless.pre stay fun _ => pure Lossless.pre
    ⟨copyOut_keeps _ _ _, dropInPlace_keeps env _ _ _, getBind fun v => bindAt Lossless.pre (assert Lossless.pre _ v) fun _ t e => by
      unfold Exec.assert at e
      split at e
      · cases e
        refine setElems_keeps (fun v => v.elems.eraseIdx i) fun _ => ?_
        exact seq Lossless.pre (adjustFrom_keeps _ _) fun _ => seq Lossless.pre (get Lossless.pre) fun _ => seq Lossless.pre stay fun _ =>
          seq Lossless.pre (require Lossless.pre _) fun _ => memmove_keeps _ _ _ _
      · cases e⟩

theorem provider_keeps : (alignedP c A : Provider (AVec A β) A.ty β).Keeps Lossless a where
  alignNew h := by injection h with h; exact h.symm
  tryReserve := tryReserve_keeps
  tryReserveExact := tryReserve_keeps
  addBytes env n _ _ := addBytes_keeps env n
  insertUnchecked := insertUnchecked_keeps
  insertWith env i l md _ := insertWith_keeps env i l md
  removeInto := removeInto_keeps
  pushUnchecked := pushUnchecked_keeps
  pushWith env l md _ := pushWith_keeps env l md
  popInto := popInto_keeps

theorem machine_keeps : (alignedM c A : Machine (AVec A β) A.ty β).Keeps Lossless where
  note _ _ := Lossless.same rfl rfl rfl rfl
  store r bs := getBind fun v => by
    cases hc : r.store v.heap bs with
    | none => rw [Exec.bind_ub (by rfl)]; trivial
    | some h' => exact ⟨Lossless.same rfl rfl rfl (Ref.store_block hc), trivial⟩

theorem Lossless.noLoss {v v' : AVec A β} (h : Lossless v v') :
    NoLoss (alignedP c A) (fun v : AVec A β => v.heap.block) (fun v => v.ptr) a v v' :=
  ⟨h.capacity, fun _ _ e e' => by cases e; cases e'; exact h.bytes, Nat.le_refl _, Nat.le_max_left _ _,
    fun _ e _ => let ⟨h1, h2⟩ := h.stays (by injection e); ⟨h1, fun _ => h2⟩⟩

end AVec

/-! ## Sized elements -/
namespace SVec
variable {sz al : Nat} {β : Type} {c : Cfg} {a : Nat}

/-- `NoLoss` for this implementation. -/
structure Lossless (c : Cfg) (v v' : SVec sz al β) : Prop where
  capacity : v.capacity c ≤ v'.capacity c
  stays : v'.capacity c = v.capacity c → v'.allocs = v.allocs

theorem Lossless.pre : Pre (Lossless c : SVec sz al β → SVec sz al β → Prop) where
  refl _ := ⟨Nat.le_refl _, fun _ => rfl⟩
  trans h h' := by
    have h1 := h.capacity
    have h2 := h'.capacity
    exact ⟨by omega, fun e => (h'.stays (by omega)).trans (h.stays (by omega))⟩

open Exec.Keeps

theorem Lossless.same {v v' : SVec sz al β} (h1 : v'.slots = v.slots) (h2 : v'.allocs = v.allocs) : Lossless c v v' := by
  have e : v'.capacity c = v.capacity c := by unfold SVec.capacity; rw [h1]
  exact ⟨by omega, fun _ => h2⟩

/-- A precondition and then a change of something else. -/
theorem checked_keeps {p : SVec sz al β → Prop} [∀ v, Decidable (p v)] {f : SVec sz al β → SVec sz al β}
    (h : ∀ v, (f v).slots = v.slots ∧ (f v).allocs = v.allocs) :
    (Exec.get >>= fun v => Exec.require (p v) >>= fun _ => Exec.set (f v) : Exec (SVec sz al β) Unit).Keeps (Lossless c) (fun _ => True) :=
  getBind fun v => bindAt Lossless.pre (require Lossless.pre _ v) fun _ t e => by
    unfold Exec.require at e
    split at e
    · cases e; exact ⟨Lossless.same (h v).1 (h v).2, trivial⟩
    · cases e

theorem memmove_keeps (src dst n : Nat) : (memmove c src dst n : Exec (SVec sz al β) Unit).Keeps (Lossless c) (fun _ => True) :=
  checked_keeps fun _ => ⟨rfl, rfl⟩
theorem memwrite_keeps (i : Nat) (bs : List β) : (memwrite c i bs : Exec (SVec sz al β) Unit).Keeps (Lossless c) (fun _ => True) :=
  checked_keeps fun _ => ⟨rfl, rfl⟩
theorem setLen_keeps (n : Nat) : (setLen c n : Exec (SVec sz al β) Unit).Keeps (Lossless c) (fun _ => True) :=
  checked_keeps fun _ => ⟨rfl, rfl⟩

theorem dropInPlace_keeps (env : Env (Val (sizedTy sz al) β)) (i : Nat) : (dropInPlace c env i).Keeps (Lossless c) (fun _ => True) :=
  seq Lossless.pre (get Lossless.pre) fun _ => seq Lossless.pre (require Lossless.pre _) fun _ =>
    seq Lossless.pre (modify fun _ => Lossless.same rfl rfl) fun _ => ite (panic Lossless.pre) (unit Lossless.pre)

theorem tryReserve_keeps (env : Env (Val (sizedTy sz al) β)) (n : Nat) : (tryReserve c env n).Keeps (Lossless c) (fun _ => True) :=
  getBind fun v => by
    cases h : stdReserve (maxSlots c sz) (v.capacity c) v.len n env.infoGrow with
    | error e => exact ⟨Lossless.pre.refl v, trivial⟩
    | ok cap =>
      by_cases hn : n ≤ v.capacity c - v.len
      · exact ⟨by rw [if_pos hn]; exact Lossless.pre.refl v, trivial⟩
      · refine ⟨?_, trivial⟩
        rw [if_neg hn]
        have h1 := stdReserve_grows h
        have h2 : sz ≠ 0 := by
          rintro rfl
          unfold stdReserve maxSlots SVec.capacity at h
          simp only [if_true] at h
          unfold SVec.capacity at hn
          rw [if_pos rfl] at hn
          rw [if_neg hn, if_pos (by omega)] at h
          cases h
        have h3 : v.capacity c < cap := by omega
        unfold SVec.capacity at h3
        rw [if_neg h2] at h3
        refine ⟨?_, fun e => ?_⟩
        · unfold SVec.capacity
          rw [if_neg h2, if_neg h2]
          exact Nat.le_of_lt h3
        · unfold SVec.capacity at e
          rw [if_neg h2, if_neg h2] at e
          have e : cap = v.slots := e
          omega

theorem addBytes_keeps (env : Env (Val (sizedTy sz al) β)) (n : Nat) : (tryReserveAdditionalBytes c env n).Keeps (Lossless c) (fun _ => True) :=
  seq Lossless.pre (get Lossless.pre) fun _ => seq Lossless.pre (orUb Lossless.pre fun _ _ => trivial) fun _ =>
    seq Lossless.pre (seq Lossless.pre (assert Lossless.pre _) fun _ => pure Lossless.pre trivial) fun _ => tryReserve_keeps env _

/-- The frequent steps that leave the state alone. -/
local macro "stay" : term => `(orUb Lossless.pre fun _ _ => trivial)

theorem insertUnchecked_keeps (i : Nat) (x : Val (sizedTy sz al) β) : (insertUnchecked c i x).Keeps (Lossless c) (fun _ => True) :=
  seq Lossless.pre (get Lossless.pre) fun _ => seq Lossless.pre (debugAssert Lossless.pre _ _) fun _ => seq Lossless.pre stay fun _ =>
  seq Lossless.pre (require Lossless.pre _) fun _ => seq Lossless.pre (memmove_keeps _ _ _) fun _ => seq Lossless.pre (memwrite_keeps _ _) fun _ =>
  seq Lossless.pre stay fun _ => setLen_keeps _

theorem pushUnchecked_keeps (x : Val (sizedTy sz al) β) : (pushUnchecked c x).Keeps (Lossless c) (fun _ => True) :=
  seq Lossless.pre (get Lossless.pre) fun _ => seq Lossless.pre (debugAssert Lossless.pre _ _) fun _ =>
  seq Lossless.pre (require Lossless.pre _) fun _ => seq Lossless.pre (memwrite_keeps _ _) fun _ => seq Lossless.pre stay fun _ => setLen_keeps _

theorem pushWith_keeps (env : Env (Val (sizedTy sz al) β)) (l : Layout) (md : Unit) :
    (pushWith c env l md).Keeps (Lossless c) (fun p => p.Keeps (Lossless c)) :=
  seq Lossless.pre (tryReserve_keeps env 1) fun r => seq Lossless.pre (unwrapReserve_keeps Lossless.pre r) fun _ => seq Lossless.pre (get Lossless.pre) fun _ =>
  seq Lossless.pre (require Lossless.pre _) fun _ => pure Lossless.pre
    ⟨fun _ => seq Lossless.pre (require Lossless.pre _) fun _ => memwrite_keeps _ _,
      seq Lossless.pre (get Lossless.pre) fun _ => seq Lossless.pre stay fun _ => setLen_keeps _, unit Lossless.pre⟩

theorem insertWith_keeps (env : Env (Val (sizedTy sz al) β)) (i : Nat) (l : Layout) (md : Unit) :
    (insertWithUnchecked c env i l md).Keeps (Lossless c) (fun p => p.Keeps (Lossless c)) :=
  seq Lossless.pre (tryReserve_keeps env 1) fun r => seq Lossless.pre (unwrapReserve_keeps Lossless.pre r) fun _ => seq Lossless.pre (get Lossless.pre) fun _ =>
  seq Lossless.pre (require Lossless.pre _) fun _ => seq Lossless.pre stay fun _ => seq Lossless.pre (require Lossless.pre _) fun _ =>
  seq Lossless.pre (memmove_keeps _ _ _) fun _ => pure Lossless.pre
    ⟨fun _ => seq Lossless.pre (require Lossless.pre _) fun _ => memwrite_keeps _ _,
      seq Lossless.pre (get Lossless.pre) fun _ => seq Lossless.pre stay fun _ => setLen_keeps _, memmove_keeps _ _ _⟩

theorem copyOut_keeps (i : Nat) (v : SVec sz al β) : (copyOut c i v).Leaves (Lossless c v) := by
  unfold copyOut
  split
  · exact Lossless.pre.refl v
  · trivial

theorem popInto_keeps (env : Env (Val (sizedTy sz al) β)) :
    Exec.Keeps (Lossless c) (fun st : Started (SVec sz al β) (sizedTy sz al) β => st.Keeps (Lossless c)) (popIntoUnchecked c env) :=
  seq Lossless.pre (get Lossless.pre) fun _ => seq Lossless.pre (debugAssert Lossless.pre _ _) fun _ => seq Lossless.pre stay fun _ =>
  seq Lossless.pre (setLen_keeps _) fun _ => seq Lossless.pre (require Lossless.pre _) fun _ =>
  pure Lossless.pre ⟨copyOut_keeps _, dropInPlace_keeps env _, unit Lossless.pre⟩

theorem removeInto_keeps (env : Env (Val (sizedTy sz al) β)) (i : Nat) :
    Exec.Keeps (Lossless c) (fun st : Started (SVec sz al β) (sizedTy sz al) β => st.Keeps (Lossless c)) (removeIntoUnchecked c env i) :=
  seq Lossless.pre (get Lossless.pre) fun _ => seq Lossless.pre (debugAssert Lossless.pre _ _) fun _ => seq Lossless.pre stay fun _ =>
  seq Lossless.pre (setLen_keeps _) fun _ => seq Lossless.pre (require Lossless.pre _) fun _ => seq Lossless.pre stay fun _ =>
  pure Lossless.pre ⟨copyOut_keeps _, dropInPlace_keeps env _, seq Lossless.pre (require Lossless.pre _) fun _ => memmove_keeps _ _ _⟩

theorem provider_keeps : (sizedP c sz al : Provider (SVec sz al β) (sizedTy sz al) β).Keeps (Lossless c) a where
  alignNew h := by injection h with h; exact h.symm
  tryReserve := tryReserve_keeps
  tryReserveExact := tryReserve_keeps
  addBytes env n _ _ := addBytes_keeps env n
  insertUnchecked := insertUnchecked_keeps
  insertWith env i l md _ := insertWith_keeps env i l md
  removeInto := removeInto_keeps
  pushUnchecked := pushUnchecked_keeps
  pushWith env l md _ := pushWith_keeps env l md
  popInto := popInto_keeps

theorem machine_keeps : (sizedM c sz al : Machine (SVec sz al β) (sizedTy sz al) β).Keeps (Lossless c) where
  note _ _ := Lossless.same rfl rfl
  store _ _ := seq Lossless.pre (require Lossless.pre _) fun _ => memwrite_keeps _ _

theorem Lossless.noLoss {v v' : SVec sz al β} (h : Lossless c v v') :
    NoLoss (sizedP c sz al) (fun v : SVec sz al β => v.allocs) (fun _ => 0) a v v' := by
  refine ⟨h.capacity, fun b b' e e' => ?_, Nat.le_refl _, Nat.le_max_left _ _, fun e _ _ => ⟨h.stays e, fun _ => rfl⟩⟩
  have e : uncheckedMul c (v.capacity c) sz = some b := e
  have e' : uncheckedMul c (v'.capacity c) sz = some b' := e'
  unfold uncheckedMul at e e'
  split at e <;> cases e
  split at e' <;> cases e'
  exact Nat.mul_le_mul_right _ h.capacity

end SVec
end Verif
