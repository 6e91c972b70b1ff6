import Verif.Model.Client
import Verif.Proofs.Arith

/-!
# Which requests the allocator gets

Two environments that answer alike for some requests make no difference for a call, if the call makes only those requests.
-/

namespace Verif

/-- The interface functions cannot tell the two environments apart. -/
structure Provider.Same {V : Type} {T : UTy} {β : Type} (P : Provider V T β) (env env' : Env (Val T β)) : Prop where
  tryReserve : P.tryReserve env = P.tryReserve env'
  tryReserveExact : P.tryReserveExact env = P.tryReserveExact env'
  bytes : P.tryReserveAdditionalBytesAlign env = P.tryReserveAdditionalBytesAlign env'
  shrinkTo : P.shrinkTo env = P.shrinkTo env'
  insertWith : P.insertWithUnchecked env = P.insertWithUnchecked env'
  removeInto : P.removeIntoUnchecked env = P.removeIntoUnchecked env'
  pushWith : P.pushWith env = P.pushWith env'
  popInto : P.popIntoUnchecked env = P.popIntoUnchecked env'
  dropPanics : env.dropPanics = env'.dropPanics

namespace Provider.Same
variable {V : Type} {T : UTy} {β : Type} {P : Provider V T β} {env env' : Env (Val T β)} (h : P.Same env env')
include h

theorem tryCapacityBytesAlign (c : Cfg) :
    Api.tryReserveCapacityBytesAlign c P env = Api.tryReserveCapacityBytesAlign c P env' := by
  funext n b a
  simp only [Api.tryReserveCapacityBytesAlign, Api.tryReserve, Api.reserveNeeded, h.tryReserve, h.bytes]

theorem tryExactCapacityBytesAlign :
    Api.tryReserveExactCapacityBytesAlign P env = Api.tryReserveExactCapacityBytesAlign P env' := by
  funext n b a
  simp only [Api.tryReserveExactCapacityBytesAlign, h.tryReserve, h.bytes]

theorem attempt (c : Cfg) (q : Reservation) : q.attempt c P env = q.attempt c P env' := by
  cases q <;>
    simp only [Reservation.attempt, Api.tryReserve, Api.tryReserveExact, Api.tryReserveCapacityBytes,
      Api.tryReserveExactCapacityBytes, h.tryReserve, h.tryReserveExact, h.tryCapacityBytesAlign c,
      h.tryExactCapacityBytesAlign]

theorem reserve (c : Cfg) (q : Reservation) : q.run c P env = q.run c P env' := by
  cases q <;>
    simp only [Reservation.run, Api.reserve, Api.reserveCapacityBytes, Api.reserveCapacityBytesAlign, Api.reserveExact,
      Api.reserveExactCapacityBytes, Api.reserveExactCapacityBytesAlign, Api.tryReserve,
      Api.tryReserveCapacityBytes, Api.tryReserveExactCapacityBytes, h.tryReserve,
      h.tryCapacityBytesAlign c, h.tryExactCapacityBytesAlign]

theorem shrink (c : Cfg) (q : Shrinking) : q.run c P env = q.run c P env' := by
  cases q <;>
    simp only [Shrinking.run, Api.shrinkToFit, Api.shrinkTo, Api.shrinkCapacityBytesTo, Api.shrinkCapacityBytesAlignTo,
      h.shrinkTo]

theorem exec (c : Cfg) {M : Machine V T β} (hM : M.P = P) (op : Op T β) : op.exec c M env = op.exec c M env' := by
  subst hM
  have hr : Api.reserveCapacityBytesAlign c M.P env = Api.reserveCapacityBytesAlign c M.P env' := by
    funext n b a; simp only [Api.reserveCapacityBytesAlign, h.tryCapacityBytesAlign c]
  have hg : ∀ x m, M.giving env x m = M.giving env' x m := by
    intro x m; simp only [Machine.giving, Machine.dropArg, h.dropPanics]
  have hc : ∀ s : Src T β, s.code env = s.code env' := by
    intro s; cases s <;> simp only [Src.code, h.dropPanics]
  cases op <;>
    simp only [Op.exec, hg, hc, Api.push, Api.insert, Api.pushWithRun, Api.pushWith, Api.insertWithRun, Api.popInto,
      Api.removeInto, hr, h.pushWith, h.insertWith, h.popInto, h.removeInto, h.attempt c, h.reserve c, h.shrink c]

end Provider.Same

/-- A request that the allocator contract permits. -/
def Layout.Permitted (c : Cfg) (l : Layout) : Prop := 0 < l.size ∧ l.Valid c

theorem layoutUnchecked_permitted {c : Cfg} {n a : Nat} {l : Layout} (h : layoutUnchecked c n a = some l) (hn : 0 < n) :
    l.Permitted c := by
  unfold layoutUnchecked at h
  split at h
  · rename_i hv
    cases h
    exact ⟨hn, mem_variants.mp hv.1, hv.2⟩
  · cases h

section
variable {X : Type} {β : Type} [Inhabited β] {env : Env X} {f : Layout → Option (Nat × Nat)}

omit [Inhabited β] in
theorem Exec.orUb_congr {σ α γ : Type} (o : Option α) {g g' : α → Exec σ γ} (h : ∀ a, o = some a → g a = g' a) :
    (Exec.orUb o >>= g) = (Exec.orUb o >>= g') := by
  cases o with
  | none => rfl
  | some a => exact h a rfl

theorem Heap.allocate_same {l : Layout} (h : f l = env.alloc l) (hp : Heap β) :
    hp.allocate { env with alloc := f } l = hp.allocate env l := by
  simp only [Heap.allocate, h]

theorem Heap.grow_same {l : Layout} (h : f l = env.alloc l) (hp : Heap β) (p : Nat) (old : Layout) :
    hp.grow { env with alloc := f } p old l = hp.grow env p old l := by
  simp only [Heap.grow, h]

theorem Heap.shrink_same {l : Layout} (h : f l = env.alloc l) (hp : Heap β) (p : Nat) (old : Layout) :
    hp.shrink { env with alloc := f } p old l = hp.shrink env p old l := by
  simp only [Heap.shrink, h]
end

namespace UVec
variable {T : UTy} {β : Type} [Inhabited β] {c : Cfg} {env : Env (Val T β)} {f : Layout → Option (Nat × Nat)}

theorem dropLoop_same (p a : Nat) : ∀ (es : List (Info T.Meta)) (s : Nat),
    dropLoop c { env with alloc := f } p a es s = dropLoop c env p a es s
  | [], _ => rfl
  | e :: es, s => by
    simp only [dropLoop, dropLoop_same p a es]
    rfl

theorem drop_same : drop c { env with alloc := f } = drop c env := by
  simp only [drop, dropLoop_same]

theorem growStorage_same {l : Layout} (h : f l = env.alloc l) (v : UVec T β) :
    v.growStorage c { env with alloc := f } l = v.growStorage c env l := by
  simp only [growStorage, Heap.allocate_same h, Heap.grow_same h]

variable (h : ∀ l, l.Permitted c → f l = env.alloc l)
include h

theorem reserveCommit_same (b a k : Nat) : reserveCommit c { env with alloc := f } b a k = reserveCommit c env b a k := by
  unfold reserveCommit
  funext v
  simp only [Exec.get_bind]
  refine congrFun (Exec.orUb_congr _ fun o _ => ?_) v
  cases o with
  | none => rfl
  | some n =>
    dsimp only
    split
    · split
      · rename_i hn
        refine Exec.orUb_congr _ fun l hl => ?_
        rw [growStorage_same (h l (layoutUnchecked_permitted hl hn))]
      · rfl
    · rfl

theorem bytes_same : tryReserveAdditionalBytesAlign c { env with alloc := f } = tryReserveAdditionalBytesAlign c env := by
  funext b a
  simp only [tryReserveAdditionalBytesAlign, reserveCommit_same h]

theorem shrinkCommit_same (b a : Nat) (r : Bool) :
    shrinkCommit c { env with alloc := f } b a r = shrinkCommit c env b a r := by
  have hb : ∀ o n, 0 < n → shrinkBlock c { env with alloc := f } o n a r = shrinkBlock c env o n a r := by
    intro o n hn
    unfold shrinkBlock
    refine Exec.orUb_congr _ fun l hl => ?_
    simp only [Heap.shrink_same (h l (layoutUnchecked_permitted hl hn))]
  unfold shrinkCommit
  funext v
  simp only [Exec.get_bind]
  refine congrFun (Exec.orUb_congr _ fun n _ => Exec.orUb_congr _ fun m _ => ?_) v
  refine congrArg _ (funext fun _ => ?_)
  split
  · refine Exec.orUb_congr _ fun o _ => ?_
    split
    · rename_i hn; rw [hb o _ hn]
    · rfl
  · rfl

theorem same_calls : (unalignedP c T).Same { env with alloc := f } env where
  tryReserve := rfl
  tryReserveExact := rfl
  bytes := bytes_same h
  shrinkTo := by
    funext n b a
    show shrinkTo c _ n b a = shrinkTo c env n b a
    simp only [shrinkTo, shrinkCommit_same h]
    rfl
  insertWith := by
    funext i l md
    show insertWithUnchecked c _ i l md = insertWithUnchecked c env i l md
    simp only [insertWithUnchecked, reserveForEmplace, bytes_same h]
    rfl
  removeInto := rfl
  pushWith := by
    funext l md
    show pushWith c _ l md = pushWith c env l md
    simp only [pushWith, reserveForEmplace, bytes_same h]
    rfl
  popInto := rfl
  dropPanics := rfl

end UVec

namespace AVec
variable {A : ATy} {β : Type} [Inhabited β] {c : Cfg} {env : Env (Val A.ty β)} {f : Layout → Option (Nat × Nat)}

theorem dropLoop_same (p : Nat) : ∀ (es : List (Info A.R)) (s : Nat),
    dropLoop c { env with alloc := f } p es s = dropLoop c env p es s
  | [], _ => rfl
  | e :: es, s => by
    simp only [dropLoop, dropLoop_same p es]
    rfl

theorem drop_same : drop c { env with alloc := f } = drop c env := by
  simp only [drop, dropLoop_same]

theorem growStorage_same {l : Layout} (h : f l = env.alloc l) (v : AVec A β) :
    v.growStorage c { env with alloc := f } l = v.growStorage c env l := by
  simp only [growStorage, Heap.allocate_same h, Heap.grow_same h]

variable (h : ∀ l, l.Permitted c → f l = env.alloc l)
include h

theorem bytes_same : tryReserveAdditionalBytes c { env with alloc := f } = tryReserveAdditionalBytes c env := by
  funext b v
  unfold tryReserveAdditionalBytes
  simp only [Exec.get_bind]
  refine congrFun ?_ v
  split
  · rename_i hb
    split
    · rfl
    · rename_i n hn
      refine Exec.orUb_congr _ fun l hl => ?_
      have hpos : 0 < n := by
        cases hc : checkedAdd c v.byteCap b with
        | none => rw [hc] at hn; cases hn
        | some s =>
          rw [hc] at hn
          have hs : s = v.byteCap + b := by
            unfold checkedAdd at hc
            split at hc <;> simp_all
          have hn' : s = n := by
            change VS.new c A.ALIGN s = some n at hn
            unfold VS.new at hn
            split at hn <;> simp_all
          omega
      rw [growStorage_same (h l (layoutUnchecked_permitted hl hpos))]
  · rfl

theorem shrinkTo_same : shrinkTo c { env with alloc := f } = shrinkTo c env := by
  funext n b
  unfold shrinkTo
  refine congrArg _ (funext fun _ => ?_)
  funext v
  simp only [Exec.get_bind]
  refine congrFun ?_ v
  split
  · refine Exec.orUb_congr _ fun m _ => Exec.orUb_congr _ fun o _ => ?_
    split
    · rfl
    · rename_i hm
      refine Exec.orUb_congr _ fun l hl => ?_
      rw [Heap.shrink_same (h l (layoutUnchecked_permitted hl (Nat.pos_of_ne_zero hm)))]
  · rfl

theorem same_calls : (alignedP c A).Same { env with alloc := f } env where
  tryReserve := rfl
  tryReserveExact := rfl
  bytes := by
    funext b _
    exact congrFun (bytes_same h) b
  shrinkTo := by
    funext n b _
    exact congrFun (congrFun (shrinkTo_same h) n) b
  insertWith := by
    funext i l md
    show insertWithUnchecked c _ i l md = insertWithUnchecked c env i l md
    simp only [insertWithUnchecked, reserveForEmplace, bytes_same h]
    rfl
  removeInto := rfl
  pushWith := by
    funext l md
    show pushWith c _ l md = pushWith c env l md
    simp only [pushWith, reserveForEmplace, bytes_same h]
    rfl
  popInto := rfl
  dropPanics := rfl

end AVec
end Verif
