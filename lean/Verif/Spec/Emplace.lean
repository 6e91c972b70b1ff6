import Verif.Spec.Basic
import Verif.Model.Protocol

/-!
# What the emplacement protocol promises

Both sides of the protocol have a safety contract (emplacable/src/lib.rs:427–470 for `Emplacable::from_fn`,
1312–1344 for `Emplacer::from_fn`). This file states them.
-/

namespace Verif

/-- What Rust guarantees about the size and alignment of any value with metadata `md`. -/
structure MetaOk {T : UTy} (c : Cfg) (md : T.Meta) : Prop where
  align_pow : ∃ k, k < c.bits ∧ T.alignOf md = 2 ^ k
  align_dvd : T.alignOf md ∣ T.sizeOf md
  size_le : T.sizeOf md + (T.alignOf md - 1) ≤ c.isizeMax

section
variable {σ τ : Type} {T : UTy} {β : Type}

/-- The safety contract of an emplacable started in state `s`: it announces the layout that belongs to the metadata;
when given a pointer it fills in a value of exactly that size, or unwinds having written at most that much. It may
also panic or abort at any point. -/
structure Emplacable.Sound (c : Cfg) (e : Emplacable σ T β) (s : σ) : Prop where
  noUb : e s ≠ .ub
  layout : ∀ st s1, e s = .ok st s1 → st.layout = ⟨T.sizeOf st.md, T.alignOf st.md⟩
  metaOk : ∀ st s1, e s = .ok st s1 → MetaOk c st.md
  writeNoUb : ∀ st s1, e s = .ok st s1 → st.write s1 ≠ .ub
  done : ∀ st s1 bs s2, e s = .ok st s1 → st.write s1 = .done bs s2 →
    bs.length = T.sizeOf st.md ∧ st.finish s2 ≠ .ub
  unwind : ∀ st s1 bs s2, e s = .ok st s1 → st.write s1 = .unwind bs s2 → bs.length ≤ T.sizeOf st.md

/-- Running `e` from `s` with an emplacer that takes the value delivers `x`; the source side then ends with outcome
`r`. -/
def Emplacable.Runs (e : Emplacable σ T β) (s : σ) (x : Val T β) (r : Res σ Unit) : Prop :=
  ∃ st s1 s2, e s = .ok st s1 ∧ st.md = x.md ∧ st.write s1 = .done x.bytes s2 ∧ st.finish s2 = r

/-- The emplacable `e` started in state `s` calls the emplacer with metadata `md`, and is then in state `s1`. -/
def Emplacable.Announces (e : Emplacable σ T β) (s : σ) (md : T.Meta) (s1 : σ) : Prop :=
  ∃ st, e s = .ok st s1 ∧ st.md = md

/-- The code of `e` itself unwinds, with state `s'`, before it has delivered a value. -/
def Emplacable.Unwinds (e : Emplacable σ T β) (s s' : σ) : Prop :=
  e s = .panic s' ∨ ∃ st s1 bs, e s = .ok st s1 ∧ st.write s1 = .unwind bs s'

/-- The code of `e` itself can end the process when started in `s`. -/
def Emplacable.Aborts (e : Emplacable σ T β) (s : σ) : Prop :=
  e s = .abort ∨ ∃ st s1, e s = .ok st s1 ∧
    (st.write s1 = .abort ∨ ∃ bs s2, st.write s1 = .done bs s2 ∧ st.finish s2 = .abort)

/-- The emplacer has prepared, in state `t`, a place for a value of `n` bytes: whatever part of a value is stored there,
the drop guards lead to a state in `Before`; when all of a value with bytes `bs` is stored and the emplacer
continues, the state is in `After bs`. -/
def Prepared.Places (p : Prepared τ β) (t : τ) (n : Nat) (Before : τ → Prop) (After : List β → τ → Prop) : Prop :=
  ∃ store commit rollback, p = .place store commit rollback ∧
    (∀ bs, bs.length ≤ n → ∃ t2 t3, store bs t = .ok () t2 ∧ rollback t2 = .ok () t3 ∧ Before t3) ∧
    (∀ bs, bs.length = n → ∃ t2 t3, store bs t = .ok () t2 ∧ commit t2 = .ok () t3 ∧ After bs t3)

/-- Drop a value: its destructor may panic. The state is the list of values that have been dropped so far. -/
def dropGiven (env : Env (Val T β)) (x : Val T β) : Exec (List (Val T β)) Unit := fun s =>
  if env.dropPanics x then .panic (s ++ [x]) else .ok () (s ++ [x])

/-- A source that owns the value `x` and announces the layout `lay`. Its state is the list of values that have been dropped so far. -/
def givenAs (lay : Layout) (env : Env (Val T β)) (x : Val T β) : Exec (List (Val T β)) (Started (List (Val T β)) T β) := pure
  { layout := lay
    md := x.md
    write := fun s => .done x.bytes s
    dropVal := dropGiven env x
    finish := pure () }

/-- The simplest source: it owns the value `x` and announces its layout. -/
def given (env : Env (Val T β)) (x : Val T β) : Exec (List (Val T β)) (Started (List (Val T β)) T β) :=
  givenAs ⟨x.size, x.align⟩ env x

/-- A function that was given an emplacable panics without using it, while the vector is in state `v`. `d` is the outcome of
dropping the emplacable, `r` the outcome of the call: the emplacable is dropped and the panic goes on, with the vector untouched.
A second panic ends the process. -/
def RejectedWith {V : Type} (v : V) (d : Res (σ × Unit) Unit) (r : Res (σ × V) Unit) : Prop :=
  match d, r with
  | .ok _ (s', _), .panic (s'', v') => s'' = s' ∧ v' = v
  | .panic _, .abort => True
  | .abort, .abort => True
  | .ub, .ub => True
  | _, _ => False

/-- Running an emplacer with the source that is part of vector state has the same outcome as giving it a plain value:
`r` is the outcome of the exchange, `r'` the outcome of giving the value. The vector state satisfies `Q` (with the
values dropped so far) if the exchange returns and `Q'` if it unwinds. -/
def SameOutcome {V X : Type} (r : Res (V × τ) Unit) (r' : Res (List X × τ) Unit) (Q Q' : V → List X → Prop) : Prop :=
  match r', r with
  | .ok _ (ds, t'), .ok _ (v, t) => t = t' ∧ Q v ds
  | .panic (ds, t'), .panic (v, t) => t = t' ∧ Q' v ds
  | .abort, .abort => True
  | .ub, .ub => True
  | _, _ => False

end
end Verif
