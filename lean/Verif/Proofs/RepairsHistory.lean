import Verif.Proofs.HistoryInst
import Verif.Props.Repairs
import Verif.Spec.Repairs

/-!
# Single calls of the corrected vectors
-/

namespace Verif
open ICall

section
variable {V : Type} {T : UTy} {β : Type} {c : Cfg} {M : Machine V T β}

theorem Machine.replace_run (ins insWith rem calls) (env : Env (Val T β)) (q : Reservation) :
    q.run c (M.replace ins insWith rem calls).P env = q.run c M.P env := by cases q <;> rfl
theorem Machine.replace_attempt (ins insWith rem calls) (env : Env (Val T β)) (q : Reservation) :
    q.attempt c (M.replace ins insWith rem calls).P env = q.attempt c M.P env := by cases q <;> rfl
theorem Machine.replace_shrink (ins insWith rem calls) (env : Env (Val T β)) (q : Shrinking) :
    q.run c (M.replace ins insWith rem calls).P env = q.run c M.P env := by cases q <;> rfl

theorem Machine.replace_insertWith {σ : Type} (ins rem calls) (env : Env (Val T β)) (i : Nat) (e : Emplacable σ T β) :
    Api.insertWithRun (M.replace ins M.P.insertWithUnchecked rem calls).P env i e = Api.insertWithRun M.P env i e := rfl
theorem Machine.replace_remove (ins insWith calls) (env : Env (Val T β)) (i : Nat) :
    Api.removeInto (M.replace ins insWith M.P.removeIntoUnchecked calls).P env i = Api.removeInto M.P env i := rfl

/-- The calls that use the replaced methods. -/
def Op.Replaced : Op T β → Prop
  | .insert _ _ | .insertWith _ _ | .remove _ _ | .iter _ | .iterMut _ _ => True
  | _ => False

/-- What is known about the other calls stays. -/
def Client.replace (K : Client c M) (ins insWith rem calls)
    (Covered : Env (Val T β) → Op T β → V → List (Val T β) → Prop)
    (same : ∀ {env op v xs}, ¬ Op.Replaced op → Covered env op v xs → K.Covered env op v xs)
    (insert : ∀ {v xs env x i}, K.H v xs → K.EnvOk env → x.WF c → Covered env (.insert i x) v xs → i ≤ xs.length →
      (Api.insert c (M.replace ins insWith rem calls).P env i x v).Meets (fun _ v' => K.H v' (xs.take i ++ x :: xs.drop i) ∧ M.drops v' = M.drops v)
        (fun v' => (K.H v' xs ∧ M.drops v' = M.drops v) ∧ K.Short env (.insert i x) v xs) (K.Short env (.insert i x) v xs))
    (insert_out : ∀ {v xs env x i}, K.H v xs → xs.length < i → Api.insert c (M.replace ins insWith rem calls).P env i x v = .panic v)
    (insertWith : ∀ {v xs env} {s : Src T β} {i}, K.H v xs → K.EnvOk env → (Op.pushWith s).WF c xs →
      Covered env (.insertWith i s) v xs → i ≤ xs.length →
      (Api.insertWithRun (M.replace ins insWith rem calls).P env i (s.code env) ([], v)).Meets
        (fun _ st => st.1 = [] ∧ ∃ x, s = .value x ∧ K.H st.2 (xs.take i ++ x :: xs.drop i) ∧ M.drops st.2 = M.drops v)
        (fun st => st.1 = [] ∧ (K.H st.2 xs ∧ M.drops st.2 = M.drops v) ∧ ((∃ x, s = .value x) → K.Short env (.insertWith i s) v xs))
        (K.Short env (.insertWith i s) v xs))
    (insertWith_out : ∀ {v xs env} {s : Src T β} {i}, K.H v xs → xs.length < i →
      RejectedWith v (run (s.code env) Sink.dropping ([], ())) (Api.insertWithRun (M.replace ins insWith rem calls).P env i (s.code env) ([], v)))
    (remove : ∀ {v xs env i} {d : Dst}, K.H v xs → (hi : i < xs.length) → Covered env (.remove i d) v xs →
      SameOutcome (run (Api.removeInto (M.replace ins insWith rem calls).P env i) d.code (v, none)) (run (given env xs[i]) d.code (M.drops v, none))
        (fun v' ds => K.H v' (xs.eraseIdx i) ∧ M.drops v' = ds) (fun v' ds => K.H v' xs ∧ M.drops v' = ds))
    (remove_drop : ∀ {v xs env i}, K.H v xs → (hi : i < xs.length) → Covered env (.remove i .drop) v xs → env.dropPanics xs[i] = false)
    (remove_out : ∀ {v xs env i}, K.H v xs → xs.length ≤ i → Api.removeInto (M.replace ins insWith rem calls).P env i v = .panic v)
    (hcalls : ∀ {v xs env ks}, K.H v xs → Covered env (.iter ks) v xs → calls v ks = some ((visited ks xs).map (·.bind (refTo M.P v))))
    (coveredMut : ∀ {v xs env ks bss}, Covered env (.iterMut ks bss) v xs → Covered env (.iter ks) v xs) :
    Client c (M.replace ins insWith rem calls) where
  H := K.H
  EnvOk := K.EnvOk
  Short := K.Short
  Covered := Covered
  len := K.len
  note := K.note
  push h he hx hc := K.push h he hx (same id hc)
  insert := insert
  insert_out := insert_out
  pushWith h he hw hc := K.pushWith h he hw (same id hc)
  insertWith := insertWith
  insertWith_out := insertWith_out
  pop := K.pop
  pop_nil := K.pop_nil
  remove := remove
  remove_drop := remove_drop
  remove_out := remove_out
  reserve h he hc := by rw [Machine.replace_run]; exact K.reserve h he (same id hc)
  tryReserve h he hc := by rw [Machine.replace_attempt]; exact K.tryReserve h he (same id hc)
  shrink h he hc := by rw [Machine.replace_shrink]; exact K.shrink h he (same id hc)
  get := K.get
  get_out := K.get_out
  store := K.store
  keep := K.keep
  calls := hcalls
  coveredMut := coveredMut

end

section
variable {β : Type} [Inhabited β] {c : Cfg}
variable {A : ATy} {T : UTy}

/-- `AVec.client` with the changed functions. -/
def AVec.clientRepaired (hA : A.Lawful c) : Client c (alignedRepairedM (β := β) c A) :=
  (AVec.client (β := β) hA).replace _ _ _ _ (fun env op _ xs => AVec.CoveredRepaired env op xs)
    (same := fun {env op v xs} hn h => by cases op <;> first | exact trivial | exact absurd trivial hn)
    (insert := fun {v xs env x i} h he hx _ hi => by
      refine (repaired_insert_aligned hA h he hx hi).mono (fun _ _ h => h) ?_ (fun h => .inl ⟨_, _, h⟩)
      rintro v' ⟨h1, h2, h3 | h3⟩
      · exact ⟨⟨h1, h2⟩, .inl ⟨_, _, h3⟩⟩
      · exact ⟨⟨h1, h2⟩, .inr (AVec.tooLarge_mono (Nat.sub_le _ _) h3)⟩)
    (insert_out := fun h hi => (AVec.implRepaired hA.fits).insert_out h _ hi)
    (insertWith := fun h he hw _ hi => by
      rw [Machine.replace_insertWith]; exact (AVec.client (β := β) hA).insertWith h he hw trivial hi)
    (insertWith_out := fun h hi => by
      rw [Machine.replace_insertWith]; exact (AVec.client (β := β) hA).insertWith_out h hi)
    (remove := fun {v xs env i d} h hi hc => by
      rw [Machine.replace_remove]
      exact (AVec.client (β := β) hA).remove (d := d) h hi (by
        cases d <;> first | exact trivial | exact fun x hx => hc i x rfl hx))
    (remove_drop := fun {v xs env i} h hi hc => hc i _ rfl (List.getElem?_eq_getElem hi))
    (remove_out := fun h hi => by
      rw [Machine.replace_remove]; exact (AVec.client (β := β) hA).remove_out h hi)
    (hcalls := fun {v xs env ks} h _ => by
      obtain ⟨it, h1, _⟩ := repaired_calls_aligned hA.fits h ks
      rw [h1]; rfl)
    (coveredMut := fun _ _ _ h => nomatch h)

/-- `UVec.client` with the changed functions. -/
def UVec.clientRepaired (G : Prop) (c : Cfg) (T : UTy) : Client c (unalignedRepairedM (β := β) c T) :=
  (UVec.client (β := β) G c T).replace _ _ _ _ (UVec.CoveredRepaired G c)
    (same := fun {env op v xs} hn h => by
      cases op with
      | pushWith s => cases s <;> exact h
      | _ => first | exact h | exact absurd trivial hn)
    (insert := fun {v xs env x i} h he hx hc hi => by
      refine ((UVec.implRepaired G c T).insert_meets h he hx hc.1 (h.roomOk hc.2) hi (fun _ _ => trivial)).mono (fun _ _ h => h) ?_
        (fun h => .inl ⟨_, _, h⟩)
      rintro v' ⟨h1, h3 | h3⟩
      · exact ⟨⟨h1.holds, h1.drops⟩, .inl ⟨_, _, h3⟩⟩
      · exact ⟨⟨h1.holds, h1.drops⟩, .inr (UVec.tooLarge_mono (Nat.sub_le _ _) h3)⟩)
    (insert_out := fun h hi => (UVec.implRepaired G c T).insert_out h _ hi)
    (insertWith := fun {v xs env s i} h he hw hc hi => by
      have hz : ∀ md s1, Emplacable.Announces (s.code env) [] md s1 → v.ZstOk (T.sizeOf md) (T.alignOf md) := by
        intro md s1 h1
        rcases Src.announces h1 with ⟨x, rfl, rfl⟩ | ⟨bs, rfl⟩
        · exact hc
        · exact hc
      refine Src.meets (c := c) (s := s) (H := UVec.Represents G c) (D := fun v' => v'.drops = v.drops) (xs := xs) (f := fun x => xs.take i ++ x :: xs.drop i)
        (why' := fun md => env.Refuses (xs.length + 1) (v.request xs (T.sizeOf md) (T.alignOf md)))
        (fun md => env.Refuses (xs.length + 1) (v.request xs (T.sizeOf md) (T.alignOf md)) ∨ v.TooLarge c xs 1 (T.sizeOf md) (T.alignOf md))
        ?_ ((UVec.implRepaired G c T).insertWith_meets h he (Src.sound hw env []) hz hi (fun _ _ _ => trivial))
      intro md h1 h2 h3 h4
      rcases h1 with (h1 | h1) | h1
      · exact .inl ⟨_, _, h1⟩
      · cases s with
        | value x => rw [h2 x rfl] at h1; exact .inr h1
        | panics => exact absurd rfl h4
        | fails md' bs => rw [h3 md' bs rfl] at h1; exact .inr h1
      · exact .inl ⟨_, _, h1⟩)
    (insertWith_out := fun h hi => (UVec.implRepaired G c T).insertWith_out h _ hi)
    (remove := fun {v xs env i d} h hi _ => (UVec.implRepaired G c T).removeInto_run h env hi trivial d.code none)
    (remove_drop := fun {v xs env i} h hi hc => hc rfl _ (List.getElem?_eq_getElem hi))
    (remove_out := fun h hi => (UVec.implRepaired G c T).removeInto_out h _ hi)
    (hcalls := fun {v xs env ks} h _ => by
      obtain ⟨it, h1, _⟩ := repaired_calls_unaligned h ks
      rw [h1]; rfl)
    (coveredMut := fun _ => trivial)

end
end Verif
