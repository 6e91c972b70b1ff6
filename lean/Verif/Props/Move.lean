import Verif.Props.Insert
import Verif.Props.Remove
import Verif.Props.Reserve
import Verif.Props.Push
import Verif.Props.Access
import Verif.Props.Sized

/-!
# C23 and C44: raising the alignment, and moving elements between vectors
-/

namespace Verif
section
variable {T : UTy} {A : ATy} {β : Type} [Inhabited β] {c : Cfg} {sz al : Nat}

/-! ## C23 -/

/-- The elements of `v` are `xs`, one after the other, each starting at a multiple of the alignment of the vector; `get` finds
them there. -/
def UVec.LaidOut (c : Cfg) (v : UVec T β) (xs : List (Val T β)) : Prop :=
  v.len = xs.length ∧ ∀ i (hi : i < xs.length), ∃ r, Api.get (unalignedP c T) v i = some (some r) ∧ r.read v.heap = xs[i] ∧
    r.base = v.ptr ∧ r.off = ((xs.take i).map (fun x => padTo v.align x.size)).sum ∧ xs[i].align ∣ v.ptr + r.off

omit [Inhabited β] in
theorem totalWidth_eq_sum {w : Nat → Nat} : ∀ xs : List (Val T β), totalWidth w xs = (xs.map (fun x => w x.size)).sum
  | [] => rfl
  | x :: xs => by
    show w x.size + totalWidth w xs = _
    rw [totalWidth_eq_sum xs]; simp

theorem UVec.Represents.laidOut {G : Prop} {v : UVec T β} {xs : List (Val T β)} (h : v.Represents G c xs) : v.LaidOut c xs := by
  refine ⟨h.len_eq, fun i hi => ?_⟩
  have h1 : Api.get (unalignedP c T) v i = some (some ⟨v.ptr, totalWidth (padTo v.align) (xs.take i), xs[i].md⟩) := by
    unfold Api.get
    rw [if_pos (by show i < v.len; rw [h.len_eq]; exact hi)]
    show (v.getUnchecked c i).map some = _
    rw [UVec.getUnchecked_eq h i hi]; rfl
  obtain ⟨r, h2, _, h3, h4, _, h5⟩ := C06_get_unaligned h hi
  rw [h1] at h2; cases h2
  exact ⟨_, h1, h3, rfl, totalWidth_eq_sum _, Nat.dvd_of_mod_eq_zero h5⟩

/-- C23, reservation: whatever the alignment asked for, if a reservation returns, the elements are the same as before, at the
positions that belong to the new alignment. The alignment asked for is reached (see `C12_counterexample` for the exception
`ZstOk`). -/
theorem C23_reserve_partial {G : Prop} {v : UVec T β} {xs : List (Val T β)} (h : v.Represents G c xs) {env : Env (Val T β)} (hv : env.Valid) (he : G → env.Exact)
    (q : Reservation) (hal : IsAlign c q.align) :
    v.LaidOut c xs ∧ (q.run c (unalignedP c T) env v).Meets
      (fun _ v' => v'.LaidOut c xs ∧ v.align ≤ v'.align ∧ (v.ZstOk q.bytes q.align → q.align ≤ v'.align))
      (fun v' => v'.LaidOut c xs) (∃ n l, env.Refuses n l) :=
  ⟨h.laidOut, (C12_run_unaligned_partial h hv he q hal).mono (fun _ _ h => ⟨h.1.laidOut, h.2.2.2⟩) (fun _ h => h.1.laidOut) id⟩

/-- C23, `push` of a value of any alignment: the old elements are followed by the new one, at the positions that belong to the
new alignment, which is at least that of the new element. -/
theorem C23_push_partial {G : Prop} {v : UVec T β} {xs : List (Val T β)} (h : v.Represents G c xs) {env : Env (Val T β)} (hv : env.Valid) (he : G → env.Exact)
    {x : Val T β} (hx : x.WF c) (hz : v.ZstOk x.size x.align)
    (hr : ¬ G → x.align ≤ v.align → v.RoomOk xs x.size) :
    v.LaidOut c xs ∧ (Api.push c (unalignedP c T) env x v).Meets
      (fun _ v' => v'.LaidOut c (xs ++ [x]) ∧ x.align ≤ v'.align ∧ ∀ y ∈ xs, y.align ≤ v'.align)
      (fun v' => v'.LaidOut c xs) (∃ n l, env.Refuses n l) :=
  ⟨h.laidOut, (C01_push_unaligned_stored_partial h hv he hx hz (h.roomOk hr)).mono
    (fun _ _ h => ⟨h.1.laidOut, Nat.le_of_dvd h.1.al.pos (h.1.elemAl _ (by simp)),
      fun y hy => Nat.le_of_dvd h.1.al.pos (h.1.elemAl _ (by simp [hy]))⟩)
    (fun _ h => h.1.laidOut) (fun h => ⟨_, _, h⟩)⟩

/-! ## C44 -/

/-- `a.push_with(b.pop_into().unwrap())`; the state is `(b, a)`. -/
def moveLast {V : Type} (P : Provider V T β) (env : Env (Val T β)) : Exec (V × V) Unit := do
  let s ← Exec.get
  match Api.popInto P env s.1 with
  | none => Exec.panic
  | some e => Api.pushWithRun P env e

/-- `a.push_with(b.remove_into(i))`; the state is `(b, a)`. -/
def moveAt {V : Type} (P : Provider V T β) (env : Env (Val T β)) (i : Nat) : Exec (V × V) Unit :=
  Api.pushWithRun P env (Api.removeInto P env i)

omit [Inhabited β] in
theorem SameOutcome.meets {V W X : Type} {r : Res (V × W) Unit} {r' : Res (List X × W) Unit} {Q Q' : V → List X → Prop}
    (h : SameOutcome r r' Q Q') {okP : Unit → List X × W → Prop} {panicP : List X × W → Prop} {no : Prop} (h' : r'.Meets okP panicP no) :
    r.Meets (fun _ st => ∃ ds, Q st.1 ds ∧ okP () (ds, st.2)) (fun st => ∃ ds, Q' st.1 ds ∧ panicP (ds, st.2)) no := by
  cases r' with
  | ok u st =>
    cases r with
    | ok u' st' =>
      obtain ⟨b, a⟩ := st'
      obtain ⟨ds, a'⟩ := st
      obtain ⟨h1, h2⟩ := h
      cases h1; exact ⟨_, h2, h'⟩
    | _ => exact h.elim
  | panic st =>
    cases r with
    | panic st' =>
      obtain ⟨b, a⟩ := st'
      obtain ⟨ds, a'⟩ := st
      obtain ⟨h1, h2⟩ := h
      cases h1; exact ⟨_, h2, h'⟩
    | _ => exact h.elim
  | abort =>
    cases r with
    | abort => exact h'
    | _ => exact h.elim
  | ub => exact h'.elim

/-- C44, statically aligned elements: the last element of `b` moves to the end of `a`; nothing is dropped. If there is no memory,
`a` is unchanged, and the element is lost (it was popped) but not dropped. -/
theorem C44_pop_aligned (hA : A.Lawful c) {a b : AVec A β} {xs ys : List (Val A.ty β)} {x : Val A.ty β} (ha : a.Holds c xs)
    (hb : b.Holds c (ys ++ [x])) {env : Env (Val A.ty β)} (hv : env.Valid) :
    (moveLast (alignedP c A) env (b, a)).Meets
      (fun _ st => st.1.Holds c ys ∧ st.2.Holds c (xs ++ [x]) ∧ st.1.drops = b.drops ∧ st.2.drops = a.drops)
      (fun st => st.1.Holds c ys ∧ st.2.Holds c xs ∧ st.1.drops = b.drops ∧ st.2.drops = a.drops ∧
        (env.Refuses (xs.length + 1) (a.request x.size) ∨ a.TooLarge c xs 1 x.size))
      (env.Refuses (xs.length + 1) (a.request x.size)) := by
  obtain ⟨e, h1, h2⟩ := (C02_popInto_aligned hA.fits hb env).2 ys x rfl
  unfold moveLast
  rw [Exec.get_bind, h1]
  have h2' : SameOutcome _ (run (given env x) (Api.pushWith (alignedP c A) env) (b.drops, a)) _ _ :=
    h2 (Api.pushWith (alignedP c A) env) a
  refine (h2'.meets (C04_pushWith_aligned hA ha hv (given_sound (hb.wf x (by simp)) env b.drops))).mono ?_ ?_ ?_
  · rintro _ ⟨b', a'⟩ ⟨ds, ⟨h3, h4⟩, y, _, h5, h6, h7⟩
    obtain ⟨rfl, h8⟩ := given_runs h5
    cases h8
    exact ⟨h3, h6, h4, h7⟩
  · rintro ⟨b', a'⟩ ⟨ds, ⟨h3, h4⟩, ⟨h5, h6, h7 | ⟨md, ⟨st, h7, rfl⟩, h8⟩⟩ | ⟨y, _, h5, _⟩⟩
    · exact (given_no_unwind h7).elim
    · cases h7; exact ⟨h3, h5, h4, h6, h8⟩
    · obtain ⟨_, h8⟩ := given_runs h5; cases h8
  · rintro (⟨md, s1, ⟨st, h3, rfl⟩, h4⟩ | h3)
    · cases h3; exact h4
    · exact (given_no_abort h3).elim

/-- C44, statically aligned elements: the element `i` of `b` moves to the end of `a`; nothing is dropped. If there is no memory,
both are unchanged. -/
theorem C44_remove_aligned (hA : A.Lawful c) {a b : AVec A β} {xs ys : List (Val A.ty β)} (ha : a.Holds c xs)
    (hb : b.Holds c ys) {env : Env (Val A.ty β)} (hv : env.Valid) {i : Nat} (hi : i < ys.length) :
    (moveAt (alignedP c A) env i (b, a)).Meets
      (fun _ st => st.1.Holds c (ys.take i ++ ys.drop (i + 1)) ∧ st.2.Holds c (xs ++ [ys[i]]) ∧ st.1.drops = b.drops ∧
        st.2.drops = a.drops)
      (fun st => st.1.Holds c ys ∧ st.2.Holds c xs ∧ st.1.drops = b.drops ∧ st.2.drops = a.drops ∧
        (env.Refuses (xs.length + 1) (a.request ys[i].size) ∨ a.TooLarge c xs 1 ys[i].size))
      (env.Refuses (xs.length + 1) (a.request ys[i].size)) := by
  have h2 : SameOutcome _ (run (given env ys[i]) (Api.pushWith (alignedP c A) env) (b.drops, a)) _ _ :=
    C05_removeInto_aligned hA.fits hb env hi (Api.pushWith (alignedP c A) env) a
  refine (h2.meets
    (C04_pushWith_aligned hA ha hv (given_sound (hb.wf ys[i] (List.getElem_mem hi)) env b.drops))).mono ?_ ?_ ?_
  · rintro _ ⟨b', a'⟩ ⟨ds, ⟨h3, h4⟩, y, _, h5, h6, h7⟩
    obtain ⟨rfl, h8⟩ := given_runs h5
    cases h8
    exact ⟨h3, h6, h4, h7⟩
  · rintro ⟨b', a'⟩ ⟨ds, ⟨h3, h4⟩, ⟨h5, h6, h7 | ⟨md, ⟨st, h7, rfl⟩, h8⟩⟩ | ⟨y, _, h5, _⟩⟩
    · exact (given_no_unwind h7).elim
    · cases h7; exact ⟨h3, h5, h4, h6, h8⟩
    · obtain ⟨_, h8⟩ := given_runs h5; cases h8
  · rintro (⟨md, s1, ⟨st, h3, rfl⟩, h4⟩ | h3)
    · cases h3; exact h4
    · exact (given_no_abort h3).elim

/-- C44 for `pop_into`, dynamically aligned elements. Partial: `ZstOk` for the receiving vector. -/
theorem C44_pop_unaligned_partial {G G' : Prop} {a b : UVec T β} {xs ys : List (Val T β)} {x : Val T β} (ha : a.Represents G c xs)
    (hb : b.Represents G' c (ys ++ [x])) {env : Env (Val T β)} (hv : env.Valid) (he : G → env.Exact) (hz : a.ZstOk x.size x.align) :
    (moveLast (unalignedP c T) env (b, a)).Meets
      (fun _ st => st.1.Represents G' c ys ∧ st.2.Represents G c (xs ++ [x]) ∧ st.1.drops = b.drops ∧ st.2.drops = a.drops)
      (fun st => st.1.Represents G' c ys ∧ st.2.Represents G c xs ∧ st.1.drops = b.drops ∧ st.2.drops = a.drops ∧
        (env.Refuses (xs.length + 1) (a.request xs x.size x.align) ∨ a.TooLarge c xs 1 x.size x.align))
      (env.Refuses (xs.length + 1) (a.request xs x.size x.align)) := by
  obtain ⟨e, h1, h2⟩ := (C02_popInto_unaligned hb env).2 ys x rfl
  unfold moveLast
  rw [Exec.get_bind, h1]
  refine ((h2 _ a).meets (C04_pushWith_unaligned_partial ha hv he (given_sound (hb.wf x (by simp)) env b.drops) ?_)).mono ?_ ?_ ?_
  · rintro md s1 ⟨st, h3, rfl⟩
    cases h3; exact hz
  · rintro _ ⟨b', a'⟩ ⟨ds, ⟨h3, h4⟩, y, _, h5, h6, h7⟩
    obtain ⟨rfl, h8⟩ := given_runs h5
    cases h8
    exact ⟨h3, h6, h4, h7⟩
  · rintro ⟨b', a'⟩ ⟨ds, ⟨h3, h4⟩, ⟨h5, h6, h7 | ⟨md, ⟨st, h7, rfl⟩, h8⟩⟩ | ⟨y, _, h5, _⟩⟩
    · exact (given_no_unwind h7).elim
    · cases h7; exact ⟨h3, h5, h4, h6, h8⟩
    · obtain ⟨_, h8⟩ := given_runs h5; cases h8
  · rintro (⟨md, s1, ⟨st, h3, rfl⟩, h4⟩ | h3)
    · cases h3; exact h4
    · exact (given_no_abort h3).elim

/-- C44 for `remove_into`, dynamically aligned elements. Partial: `ZstOk` for the receiving vector, `RemoveOk` for the other. -/
theorem C44_remove_unaligned_partial {G G' : Prop} {a b : UVec T β} {xs ys : List (Val T β)} (ha : a.Represents G c xs)
    (hb : b.Represents G' c ys) {env : Env (Val T β)} (hv : env.Valid) (he : G → env.Exact) {i : Nat} (hi : i < ys.length) (hr : b.RemoveOk ys i)
    (hz : a.ZstOk ys[i].size ys[i].align) :
    (moveAt (unalignedP c T) env i (b, a)).Meets
      (fun _ st => st.1.Represents G' c (ys.take i ++ ys.drop (i + 1)) ∧ st.2.Represents G c (xs ++ [ys[i]]) ∧ st.1.drops = b.drops ∧
        st.2.drops = a.drops)
      (fun st => st.1.Represents G' c ys ∧ st.2.Represents G c xs ∧ st.1.drops = b.drops ∧ st.2.drops = a.drops ∧
        (env.Refuses (xs.length + 1) (a.request xs ys[i].size ys[i].align) ∨ a.TooLarge c xs 1 ys[i].size ys[i].align))
      (env.Refuses (xs.length + 1) (a.request xs ys[i].size ys[i].align)) := by
  refine ((C05_removeInto_unaligned_partial hb env hi hr _ a).meets
    (C04_pushWith_unaligned_partial ha hv he (given_sound (hb.wf ys[i] (List.getElem_mem hi)) env b.drops) ?_)).mono ?_ ?_ ?_
  · rintro md s1 ⟨st, h3, rfl⟩
    cases h3; exact hz
  · rintro _ ⟨b', a'⟩ ⟨ds, ⟨h3, h4⟩, y, _, h5, h6, h7⟩
    obtain ⟨rfl, h8⟩ := given_runs h5
    cases h8
    exact ⟨h3, h6, h4, h7⟩
  · rintro ⟨b', a'⟩ ⟨ds, ⟨h3, h4⟩, ⟨h5, h6, h7 | ⟨md, ⟨st, h7, rfl⟩, h8⟩⟩ | ⟨y, _, h5, _⟩⟩
    · exact (given_no_unwind h7).elim
    · cases h7; exact ⟨h3, h5, h4, h6, h8⟩
    · obtain ⟨_, h8⟩ := given_runs h5; cases h8
  · rintro (⟨md, s1, ⟨st, h3, rfl⟩, h4⟩ | h3)
    · cases h3; exact h4
    · exact (given_no_abort h3).elim

/-- C44 for `pop_into`, sized elements. -/
theorem C44_pop_sized {a b : SVec sz al β} {xs ys : List (Val (sizedTy sz al) β)} {x : Val (sizedTy sz al) β} (ha : a.Holds c xs)
    (hb : b.Holds c (ys ++ [x])) (env : Env (Val (sizedTy sz al) β)) :
    (moveLast (sizedP c sz al) env (b, a)).Meets
      (fun _ st => st.1.Holds c ys ∧ st.2.Holds c (xs ++ [x]) ∧ st.1.drops = b.drops ∧ st.2.drops = a.drops)
      (fun st => st.1.Holds c ys ∧ st.2.Holds c xs ∧ st.1.drops = b.drops ∧ st.2.drops = a.drops ∧ a.NoSlot c env)
      (a.NoSlot c env) := by
  obtain ⟨e, h1, h2⟩ := (C02_popInto_sized hb env).2 ys x rfl
  unfold moveLast
  rw [Exec.get_bind, h1]
  refine ((h2 _ a).meets (C04_pushWith_sized ha env (given_sound (hb.wf x (by simp)) env b.drops))).mono ?_ ?_ ?_
  · rintro _ ⟨b', a'⟩ ⟨ds, ⟨h3, h4⟩, y, _, h5, h6, h7⟩
    obtain ⟨rfl, h8⟩ := given_runs h5
    cases h8
    exact ⟨h3, h6, h4, h7⟩
  · rintro ⟨b', a'⟩ ⟨ds, ⟨h3, h4⟩, ⟨h5, h6, h7 | ⟨md, ⟨st, h7, rfl⟩, h8⟩⟩ | ⟨y, _, h5, _⟩⟩
    · exact (given_no_unwind h7).elim
    · cases h7; exact ⟨h3, h5, h4, h6, h8⟩
    · obtain ⟨_, h8⟩ := given_runs h5; cases h8
  · rintro (⟨md, s1, ⟨st, h3, rfl⟩, h4⟩ | h3)
    · exact h4
    · exact (given_no_abort h3).elim

/-- C44 for `remove_into`, sized elements. Partial: if there is no memory, `b` loses its last element
(`C26_counterexample_sized`). -/
theorem C44_remove_sized_partial {a b : SVec sz al β} {xs ys : List (Val (sizedTy sz al) β)} (ha : a.Holds c xs)
    (hb : b.Holds c ys) (env : Env (Val (sizedTy sz al) β)) {i : Nat} (hi : i < ys.length) :
    (moveAt (sizedP c sz al) env i (b, a)).Meets
      (fun _ st => st.1.Holds c (ys.take i ++ ys.drop (i + 1)) ∧ st.2.Holds c (xs ++ [ys[i]]) ∧ st.1.drops = b.drops ∧
        st.2.drops = a.drops)
      (fun st => st.2.Holds c xs ∧ st.1.drops = b.drops ∧ st.2.drops = a.drops ∧ a.NoSlot c env) (a.NoSlot c env) := by
  refine ((C05_removeInto_sized hb env hi _ a).meets
    (C04_pushWith_sized ha env (given_sound (hb.wf ys[i] (List.getElem_mem hi)) env b.drops))).mono ?_ ?_ ?_
  · rintro _ ⟨b', a'⟩ ⟨ds, ⟨h3, h4⟩, y, _, h5, h6, h7⟩
    obtain ⟨rfl, h8⟩ := given_runs h5
    cases h8
    exact ⟨h3, h6, h4, h7⟩
  · rintro ⟨b', a'⟩ ⟨ds, ⟨h3, h4⟩, ⟨h5, h6, h7 | ⟨md, ⟨st, h7, rfl⟩, h8⟩⟩ | ⟨y, _, h5, _⟩⟩
    · exact (given_no_unwind h7).elim
    · cases h7; exact ⟨h5, h4, h6, h8⟩
    · obtain ⟨_, h8⟩ := given_runs h5; cases h8
  · rintro (⟨md, s1, ⟨st, h3, rfl⟩, h4⟩ | h3)
    · exact h4
    · exact (given_no_abort h3).elim

end

/-! ## Examples -/
section
open Sample

example := C23_reserve_partial (vecU_holds c64d (.inr rfl)) env_valid (fun _ => env_exact) (.exactCapBytesAlign 1 5 64) ⟨6, by decide, rfl⟩
example := C23_push_partial (vecU_holds c64d (.inr rfl)) env_valid (fun _ => env_exact)
  (dyn_wf 5 (List.replicate 32 7) (by decide) (by decide) (by decide) _ (.inr rfl)) (fun _ h => absurd h (by decide))
  (fun h => absurd trivial h)
example := C44_pop_aligned (bytes_lawful c64d (.inr rfl)) (ys := [bytes [1], bytes [2, 3]]) (vecA_holds c64d (.inr rfl)) (vecA_holds c64d (.inr rfl))
  env_valid
example := C44_remove_aligned (bytes_lawful c64d (.inr rfl)) (vecA_holds c64d (.inr rfl)) (vecA_holds c64d (.inr rfl))
  env_valid (i := 1) (by decide)
example := C44_pop_unaligned_partial (ys := [dyn 1 [1, 2, 3]]) (vecU_holds c64d (.inr rfl)) (vecU_holds c64d (.inr rfl)) env_valid (fun _ => env_exact)
  (fun _ h => absurd h (by decide))
example := C44_remove_unaligned_partial (vecU_holds c64d (.inr rfl)) (vecU_holds c64d (.inr rfl)) env_valid (fun _ => env_exact)
  (i := 0) (by decide) (by unfold UVec.RemoveOk; decide) (fun _ h => absurd h (by decide))
example := C44_pop_sized (ys := listP.dropLast) (vecP_holds c64d (.inr rfl)) (vecP_holds c64d (.inr rfl)) env
example := C44_remove_sized_partial (vecP_holds c64d (.inr rfl)) (vecP_holds c64d (.inr rfl)) env (i := 0) (by decide)

/-- The move, seen by a user: the second slice of `vecA` moves to the end of a copy. -/
example : ∃ b a, moveAt (alignedP c64d Bytes) env 1 (vecA, vecA) = .ok () (b, a) ∧ b.observe c64d = some [bytes [1], bytes [4, 5, 6]] ∧
    a.observe c64d = some [bytes [1], bytes [2, 3], bytes [4, 5, 6], bytes [2, 3]] := ⟨_, _, rfl, rfl, rfl⟩

end
end Verif
