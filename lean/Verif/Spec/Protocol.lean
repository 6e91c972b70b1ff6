import Verif.Spec.Emplace
import Verif.Model.Sinks

/-!
# The safety contract of an emplacer

emplacable/src/lib.rs:1295–1311, the requirements on the argument of `Emplacer::from_fn`. That the inner closure is called at most once is
part of the form of `Prepared`.
-/

namespace Verif
variable {σ τ : Type} {T : UTy} {β : Type}

/-- The emplacer `m`, called in state `t` for a value with metadata `md`, keeps its contract. It may panic or end the process before it
calls the inner closure. -/
structure Emplacer.Keeps (m : Emplacer τ T β) (md : T.Meta) (t : τ) : Prop where
  noUb : m ⟨T.sizeOf md, T.alignOf md⟩ md t ≠ .ub
  /-- the pointer is valid for writes of a value of this size; if the inner closure unwinds, whatever it has written, the drop guards of
  the emplacer run through; once it returns, so does the emplacer -/
  place : ∀ store commit rollback t1, m ⟨T.sizeOf md, T.alignOf md⟩ md t = .ok (.place store commit rollback) t1 →
    ∀ bs, bs.length ≤ T.sizeOf md → ∃ t2, store bs t1 = .ok () t2 ∧ (∃ t3, rollback t2 = .ok () t3) ∧
      (bs.length = T.sizeOf md → ∃ t3, commit t2 = .ok () t3)
  /-- after it has let the value be dropped, it returns -/
  dropIt : ∀ commit t1, m ⟨T.sizeOf md, T.alignOf md⟩ md t = .ok (.dropIt commit) t1 → ∃ t2, commit t1 = .ok () t2
  /-- if it ignores the value, it does nothing that is undefined behaviour -/
  skip : ∀ commit t1, m ⟨T.sizeOf md, T.alignOf md⟩ md t = .ok (.skip commit) t1 → commit t1 ≠ .ub

/-- The emplacable `e`, used in state `s`, keeps its contract in all three cases: its value is taken, dropped, or forgotten. -/
structure Emplacable.Keeps (c : Cfg) (e : Emplacable σ T β) (s : σ) : Prop where
  sound : e.Sound c s
  dropped : run e Sink.dropping (s, ()) ≠ .ub
  forgotten : run e Sink.forgetting (s, ()) ≠ .ub

/-- An exchange that returned has done one of the three things the protocol allows: the value was delivered, or dropped, or forgotten. -/
def Served (e : Emplacable σ T β) (s s' : σ) : Prop :=
  (∃ x, e.Runs s x (.ok () s')) ∨ run e Sink.dropping (s, ()) = .ok () (s', ()) ∨ run e Sink.forgetting (s, ()) = .ok () (s', ())

/-- Why an exchange with an emplacer that keeps its contract can unwind: the emplacer panicked before it called the inner closure (or
ignored it), or the emplacable panicked. -/
def Blames (e : Emplacable σ T β) (m : Emplacer τ T β) (s : σ) (t : τ) (s' : σ) (t' : τ) : Prop :=
  (∃ md, e.Announces s md s' ∧ (m ⟨T.sizeOf md, T.alignOf md⟩ md t = .panic t' ∨
    ∃ commit t1, m ⟨T.sizeOf md, T.alignOf md⟩ md t = .ok (.skip commit) t1 ∧ commit t1 = .panic t')) ∨
  e.Unwinds s s' ∨ (∃ x, e.Runs s x (.panic s')) ∨ run e Sink.dropping (s, ()) = .panic (s', ()) ∨
  run e Sink.forgetting (s, ()) = .panic (s', ())

/-- Why such an exchange can end the process. -/
def Ends (e : Emplacable σ T β) (m : Emplacer τ T β) (s : σ) (t : τ) : Prop :=
  (∃ md s1, e.Announces s md s1 ∧ (m ⟨T.sizeOf md, T.alignOf md⟩ md t = .abort ∨
    ∃ commit t1, m ⟨T.sizeOf md, T.alignOf md⟩ md t = .ok (.skip commit) t1 ∧ commit t1 = .abort)) ∨
  e.Aborts s ∨ run e Sink.dropping (s, ()) = .abort ∨ run e Sink.forgetting (s, ()) = .abort

end Verif
