import Verif.Proofs.History
import Verif.Props.Push
import Verif.Props.Insert
import Verif.Props.Remove
import Verif.Props.Access
import Verif.Props.Iter
import Verif.Props.Reserve
import Verif.Props.Shrink
import Verif.Props.Sized

/-!
# The three implementations as `Client`
-/

namespace Verif
section
variable {T : UTy} {A : ATy} {β : Type} {c : Cfg}

/-- Writing through a reference changes nothing but the contents of the memory. -/
theorem Ref.store_mem [Inhabited β] {h h' : Heap β} {r : Ref T} {bs : List β} (hs : r.store h bs = some h') :
    ∃ f, h' = { h with mem := f } := by
  unfold Ref.store Heap.write at hs
  split at hs
  · split at hs
    · cases hs; exact ⟨_, rfl⟩
    · cases hs
  · cases hs

/-- The outcome of `push_with` and `insert_with` for the sources of a program. -/
theorem Src.meets {V : Type} {s : Src T β} {env : Env (Val T β)} {r : Res (List (Val T β) × V) Unit} {H : V → List (Val T β) → Prop} {D : V → Prop}
    {xs : List (Val T β)} {f : Val T β → List (Val T β)} (why : T.Meta → Prop) {why' : T.Meta → Prop} {short : Prop}
    (hs : ∀ md, why md ∨ why' md → (∀ x, s = .value x → md = x.md) → (∀ md' bs, s = .fails md' bs → md = md') → s ≠ .panics → short)
    (h : r.Meets (fun _ st => ∃ x : Val T β, x.WF c ∧ Emplacable.Runs (s.code env) [] x (.ok () st.1) ∧ H st.2 (f x) ∧ D st.2)
      (fun st => (H st.2 xs ∧ D st.2 ∧ (Emplacable.Unwinds (s.code env) [] st.1 ∨ ∃ md, Emplacable.Announces (s.code env) [] md st.1 ∧ why md)) ∨
        ∃ x : Val T β, x.WF c ∧ Emplacable.Runs (s.code env) [] x (.panic st.1) ∧ H st.2 (f x) ∧ D st.2)
      ((∃ md s1, Emplacable.Announces (s.code env) [] md s1 ∧ why' md) ∨ Emplacable.Aborts (s.code env) [])) :
    r.Meets (fun _ st => st.1 = [] ∧ ∃ x, s = .value x ∧ H st.2 (f x) ∧ D st.2)
      (fun st => st.1 = [] ∧ (H st.2 xs ∧ D st.2) ∧ ((∃ x, s = .value x) → short))
      short := by
  have key : ∀ md u, Emplacable.Announces (s.code env) [] md u → why md ∨ why' md → short := by
    intro md u h1 h2
    refine hs md h2 ?_ ?_ ?_
    · rintro x rfl
      rcases Src.announces h1 with ⟨y, h3, h4⟩ | ⟨bs, h3⟩
      · cases h3; exact h4
      · cases h3
    · rintro md' bs rfl
      rcases Src.announces h1 with ⟨y, h3, h4⟩ | ⟨bs, h3⟩
      · cases h3
      · cases h3; rfl
    · rintro rfl
      rcases Src.announces h1 with ⟨y, h3, h4⟩ | ⟨bs, h3⟩ <;> cases h3
  refine h.mono ?_ ?_ ?_
  · rintro _ st ⟨x, _, h1, h2⟩
    exact ⟨by have := (Src.runs h1).2; injection this, x, (Src.runs h1).1, h2⟩
  · rintro st (⟨h1, h1', h2⟩ | ⟨x, _, h1, _⟩)
    · refine ⟨h2.elim (fun h => Src.unwinds h) (fun ⟨_, h, _⟩ => Src.announces_log h), ⟨h1, h1'⟩, ?_⟩
      rintro ⟨x, rfl⟩
      rcases h2 with h2 | ⟨md, h2, h3⟩
      · exact (Src.no_unwind h2).elim
      · exact key md _ h2 (.inl h3)
    · cases (Src.runs h1).2
  · rintro (⟨md, s1, h1, h2⟩ | h1)
    · exact key md _ h1 (.inr h2)
    · exact (Src.no_abort h1).elim

theorem Impl.ask_le {V : Type} {P : Provider V T β} (I : Impl c P) (v : V) (xs : List (Val T β)) (q : Reservation) :
    I.ask v xs q ≤ q.bytes := by
  cases q <;> simp only [Impl.ask, Reservation.bytes] <;> omega

/-! ## Dynamically aligned elements -/

theorem UVec.tooLarge_mono {v : UVec T β} {xs : List (Val T β)} {n b b' al : Nat} (hb : b ≤ b') (h : v.TooLarge c xs n b al) :
    v.TooLarge c xs n b' al := by
  rcases h with h | h
  · exact .inl h
  · refine .inr (Nat.lt_of_lt_of_le h ?_)
    exact padTo_mono (Nat.add_le_add_left hb _)

variable [Inhabited β]

theorem UVec.failing_short {G : Prop} {v : UVec T β} {xs : List (Val T β)} {env : Env (Val T β)} {q : Reservation}
    (h : (UVec.impl G c T).Failing env v xs q) :
    (∃ n l, env.Refuses n l) ∨ v.TooLarge c xs q.slots q.bytes q.align := by
  rcases h with h | h | h
  · exact .inl ⟨_, _, h⟩
  · exact .inr (.inl h)
  · exact .inr (UVec.tooLarge_mono ((UVec.impl G c T).ask_le v xs q) (.inr h))

/-- Recording a destruction changes nothing else. -/
theorem UVec.Represents.note {G : Prop} {v : UVec T β} {xs : List (Val T β)} {x : Val T β} (h : v.Represents G c xs) :
    ((unalignedM c T).note x v).Represents G c xs ∧ (unalignedM c T).drops ((unalignedM c T).note x v) = (unalignedM c T).drops v ++ [x] :=
  ⟨⟨h.wf, h.al, h.elemAl, h.infos, h.recs, h.cap, h.capDvd, h.room, h.mem, h.block, h.leaks⟩, rfl⟩

/-- Dynamically aligned elements. -/
def UVec.client (G : Prop) (c : Cfg) (T : UTy) : Client c (unalignedM (β := β) c T) where
  H := UVec.Represents G c
  EnvOk env := env.Valid ∧ (G → env.Exact)
  Short := UVec.Short c
  Covered := UVec.Covered G c
  len h := h.len_eq
  note h := h.note
  push {v xs env x} h he hx hc := by
    refine (C01_push_unaligned_stored_partial h he.1 he.2 hx hc.1 (h.roomOk hc.2)).mono (fun _ _ h => h) ?_ (fun h => .inl ⟨_, _, h⟩)
    rintro v' ⟨h1, h2, h3 | h3⟩
    · exact ⟨⟨h1, h2⟩, .inl ⟨_, _, h3⟩⟩
    · exact ⟨⟨h1, h2⟩, .inr (UVec.tooLarge_mono (Nat.sub_le _ _) h3)⟩
  insert {v xs env x i} h he hx hc hi := by
    refine (C03_insert_unaligned_stored_partial h he.1 he.2 hx hc.1 (h.roomOk hc.2.1) hi (hc.2.2 hi).1 (hc.2.2 hi).2).mono (fun _ _ h => h) ?_ (fun h => .inl ⟨_, _, h⟩)
    rintro v' ⟨h1, h2, h3 | h3⟩
    · exact ⟨⟨h1, h2⟩, .inl ⟨_, _, h3⟩⟩
    · exact ⟨⟨h1, h2⟩, .inr (UVec.tooLarge_mono (Nat.sub_le _ _) h3)⟩
  insert_out h hi := C03_insert_out_unaligned h _ _ hi
  pushWith {v xs env s} h he hw hc := by
    have hz : ∀ md s1, Emplacable.Announces (s.code env) [] md s1 → v.ZstOk (T.sizeOf md) (T.alignOf md) := by
      intro md s1 h1
      rcases Src.announces h1 with ⟨x, rfl, rfl⟩ | ⟨bs, rfl⟩
      · exact hc
      · exact hc
    refine Src.meets (c := c) (s := s) (H := UVec.Represents G c) (D := fun v' => v'.drops = v.drops) (xs := xs) (f := fun x => xs ++ [x])
      (why' := fun md => env.Refuses (xs.length + 1) (v.request xs (T.sizeOf md) (T.alignOf md)))
      (fun md => env.Refuses (xs.length + 1) (v.request xs (T.sizeOf md) (T.alignOf md)) ∨ v.TooLarge c xs 1 (T.sizeOf md) (T.alignOf md))
      ?_ (C04_pushWith_unaligned_partial h he.1 he.2 (Src.sound hw env []) hz)
    intro md h1 h2 h3 h4
    rcases h1 with (h1 | h1) | h1
    · exact .inl ⟨_, _, h1⟩
    · cases s with
      | value x => rw [h2 x rfl] at h1; exact .inr h1
      | panics => exact absurd rfl h4
      | fails md' bs => rw [h3 md' bs rfl] at h1; exact .inr h1
    · exact .inl ⟨_, _, h1⟩
  insertWith {v xs env s i} h he hw hc hi := by
    have hz : ∀ md s1, Emplacable.Announces (s.code env) [] md s1 → v.ZstOk (T.sizeOf md) (T.alignOf md) ∧
        UVec.InsertOk xs i (max v.align (T.alignOf md)) := by
      intro md s1 h1
      rcases Src.announces h1 with ⟨x, rfl, rfl⟩ | ⟨bs, rfl⟩
      · exact ⟨hc.1, hc.2 hi⟩
      · exact ⟨hc.1, hc.2 hi⟩
    refine Src.meets (c := c) (s := s) (H := UVec.Represents G c) (D := fun v' => v'.drops = v.drops) (xs := xs) (f := fun x => xs.take i ++ x :: xs.drop i)
      (why' := fun md => env.Refuses (xs.length + 1) (v.request xs (T.sizeOf md) (T.alignOf md)))
      (fun md => env.Refuses (xs.length + 1) (v.request xs (T.sizeOf md) (T.alignOf md)) ∨ v.TooLarge c xs 1 (T.sizeOf md) (T.alignOf md))
      ?_ (C04_insertWith_unaligned_partial h he.1 he.2 (Src.sound hw env []) (fun md s1 h => (hz md s1 h).1) hi (fun md s1 h => (hz md s1 h).2))
    intro md h1 h2 h3 h4
    rcases h1 with (h1 | h1) | h1
    · exact .inl ⟨_, _, h1⟩
    · cases s with
      | value x => rw [h2 x rfl] at h1; exact .inr h1
      | panics => exact absurd rfl h4
      | fails md' bs => rw [h3 md' bs rfl] at h1; exact .inr h1
    · exact .inl ⟨_, _, h1⟩
  insertWith_out h hi := C04_insertWith_out_unaligned h _ _ _ hi
  pop env d h := by
    obtain ⟨e, h1, h2⟩ := (C02_popInto_unaligned h env).2 _ _ rfl
    exact ⟨e, h1, h2 _ _⟩
  pop_nil env h := (C02_popInto_unaligned h env (τ := Unit)).1.mpr rfl
  remove {v xs env i d} h hi hc := by
    by_cases hd : d = .panics
    · subst hd
      obtain ⟨v', h1, h2, h3⟩ := C26_removeInto_unaligned (m := (Dst.panics.code : Emplacer _ T β)) (t := none) h env hi rfl
      rw [Dst.given_run]
      rw [show run (Api.removeInto (unalignedM c T).P env i) (Dst.panics.code : Emplacer _ T β) (v, none) = _ from h1]
      exact ⟨rfl, h2, h3⟩
    · have := C05_removeInto_unaligned_partial h env hi (hc.1 hd hi) (d.code) none
      rwa [← List.eraseIdx_eq_take_drop_succ] at this
  remove_drop {v xs env i} h hi hc := hc.2 rfl _ (List.getElem?_eq_getElem hi)
  remove_out h hi := C05_removeInto_out_unaligned h _ hi
  reserve {v xs env q} h he hc :=
    (run_unaligned h he.1 he.2 q hc).mono (fun _ _ h => ⟨h.holds, h.drops⟩)
      (fun _ h => ⟨⟨h.1.holds, h.1.drops⟩, UVec.failing_short h.2⟩) (fun h => .inl ⟨_, _, h⟩)
  tryReserve {v xs env q} h he hc := by
    refine (attempt_unaligned h he.1 he.2 q hc).mono ?_ (fun _ h => ⟨⟨h.2.1.holds, h.2.1.drops⟩, UVec.failing_short h.2.2⟩) id
    rintro r v' (⟨rfl, h1⟩ | ⟨e, rfl, h1, h2, _⟩)
    · exact ⟨⟨h1.holds, h1.drops⟩, .inl rfl⟩
    · exact ⟨⟨h1.holds, h1.drops⟩, .inr (UVec.failing_short h2)⟩
  shrink {v xs env q} h he hc :=
    by
    show (q.run c (unalignedP c T) env v).Meets _ _ _
    rw [q.run_unaligned env hc.1]
    refine (UVec.shrinkTo_meets h he.1 _ _ hc.1 hc.2.1).mono (fun _ _ h' => ⟨?_, h'.drops⟩) (fun _ h => h) (fun h => h.1)
    exact h'.represents h he.2 hc.2.2
  get h hi := by
    obtain ⟨r, h1, _, h2, _⟩ := C06_get_unaligned h hi
    exact ⟨r, h1, h2⟩
  get_out h hi := (C06_get_out_unaligned h hi).1
  store {v xs i bs} h hi hb := by
    obtain ⟨r, h', h1, h2, h3⟩ := C07_store_unaligned h hi hb
    refine ⟨r, _, h1, ?_, h3, rfl⟩
    show (Exec.get >>= _ : Exec _ _) v = _
    rw [Exec.get_bind, Exec.orUb_bind h2]; rfl
  keep {v xs i bs v' r} h hi hg hs j := by
    have h0 : (Exec.get >>= fun (v : UVec T β) => Exec.orUb (r.store v.heap bs) >>= fun h => Exec.set { v with heap := h } :
      Exec _ _) v = .ok () v' := hs
    rw [Exec.get_bind] at h0
    cases h1 : r.store v.heap bs with
    | none => rw [h1] at h0; cases h0
    | some m =>
      rw [h1] at h0
      obtain ⟨f, rfl⟩ := Ref.store_mem h1
      cases h0; rfl
  calls {v xs env ks} h hc := by
    obtain ⟨it, h1, _⟩ := C10_calls_unaligned_partial h ks hc
    show Option.map _ _ = _
    rw [h1]; rfl
  coveredMut h := h

/-! ## Statically aligned elements -/

omit [Inhabited β] in
theorem AVec.tooLarge_mono {v : AVec A β} {xs : List (Val A.ty β)} {n b b' : Nat} (hb : b ≤ b') (h : v.TooLarge c xs n b) :
    v.TooLarge c xs n b' := by
  rcases h with h | h
  · exact .inl h
  · exact .inr (Nat.lt_of_lt_of_le h (Nat.add_le_add_left hb _))

theorem AVec.failing_short (hA : A.Fits c) {v : AVec A β} {xs : List (Val A.ty β)} {env : Env (Val A.ty β)} {q : Reservation}
    (h : (AVec.implF hA).Failing env v xs q) :
    (∃ n l, env.Refuses n l) ∨ v.TooLarge c xs q.slots q.bytes := by
  rcases h with h | h | h
  · exact .inl ⟨_, _, h⟩
  · exact .inr (.inl h)
  · exact .inr (AVec.tooLarge_mono ((AVec.implF hA).ask_le v xs q) (.inr h))

/-- The same reservation without a request for alignment. -/
def Reservation.plain : Reservation → Reservation
  | .capBytesAlign n b _ => .capBytes n b
  | .exactCapBytesAlign n b _ => .exactCapBytes n b
  | q => q

theorem Reservation.plain_align (q : Reservation) : q.plain.align = 1 := by cases q <;> rfl
theorem Reservation.plain_slots (q : Reservation) : q.plain.slots = q.slots := by cases q <;> rfl
theorem Reservation.plain_bytes (q : Reservation) : q.plain.bytes = q.bytes := by cases q <;> rfl

/-- The alignment asked for is ignored. -/
theorem Reservation.plain_attempt (q : Reservation) (env : Env (Val A.ty β)) :
    q.attempt c (alignedP c A) env = q.plain.attempt c (alignedP c A) env := by cases q <;> rfl
theorem Reservation.plain_run (q : Reservation) (env : Env (Val A.ty β)) :
    q.run c (alignedP c A) env = q.plain.run c (alignedP c A) env := by cases q <;> rfl

/-- Statically aligned elements. -/
def AVec.client {A : ATy} (hA : A.Lawful c) : Client c (alignedM (β := β) c A) where
  H := AVec.Holds c
  EnvOk env := env.Valid
  Short := AVec.Short c
  Covered env op _ xs := AVec.Covered env op xs
  len h := h.len_eq
  note h := ⟨⟨h.wf, h.keeps, h.infos, h.recs, h.cap, h.capMax, h.mem, h.block, h.leaks⟩, rfl⟩
  push {v xs env x} h he hx hc := by
    refine (C01_push_aligned hA h he hx).mono (fun _ _ h => h) ?_ (fun h => .inl ⟨_, _, h⟩)
    rintro v' ⟨h1, h2, h3 | h3⟩
    · exact ⟨⟨h1, h2⟩, .inl ⟨_, _, h3⟩⟩
    · exact ⟨⟨h1, h2⟩, .inr (AVec.tooLarge_mono (Nat.sub_le _ _) h3)⟩
  insert {v xs env x i} h he hx hc hi := by
    refine (C03_insert_aligned_partial hA h he hx hi (hc hi)).mono (fun _ _ h => h) ?_ (fun h => .inl ⟨_, _, h⟩)
    rintro v' ⟨h1, h2, h3 | h3⟩
    · exact ⟨⟨h1, h2⟩, .inl ⟨_, _, h3⟩⟩
    · exact ⟨⟨h1, h2⟩, .inr (AVec.tooLarge_mono (Nat.sub_le _ _) h3)⟩
  insert_out h hi := C03_insert_out_aligned hA.fits h _ _ hi
  pushWith {v xs env s} h he hw hc := by
    refine Src.meets (c := c) (s := s) (H := AVec.Holds c) (D := fun v' => v'.drops = v.drops) (xs := xs) (f := fun x => xs ++ [x])
      (why' := fun md => env.Refuses (xs.length + 1) (v.request (A.ty.sizeOf md)))
      (fun md => env.Refuses (xs.length + 1) (v.request (A.ty.sizeOf md)) ∨ v.TooLarge c xs 1 (A.ty.sizeOf md))
      ?_ (C04_pushWith_aligned hA h he (Src.sound hw env []))
    intro md h1 h2 h3 h4
    rcases h1 with (h1 | h1) | h1
    · exact .inl ⟨_, _, h1⟩
    · cases s with
      | value x => rw [h2 x rfl] at h1; exact .inr h1
      | panics => exact absurd rfl h4
      | fails md' bs => rw [h3 md' bs rfl] at h1; exact .inr h1
    · exact .inl ⟨_, _, h1⟩
  insertWith {v xs env s i} h he hw hc hi := by
    refine Src.meets (c := c) (s := s) (H := AVec.Holds c) (D := fun v' => v'.drops = v.drops) (xs := xs) (f := fun x => xs.take i ++ x :: xs.drop i)
      (why' := fun md => env.Refuses (xs.length + 1) (v.request (A.ty.sizeOf md)))
      (fun md => env.Refuses (xs.length + 1) (v.request (A.ty.sizeOf md)) ∨ v.TooLarge c xs 1 (A.ty.sizeOf md))
      ?_ (C04_insertWith_aligned hA h he (Src.sound hw env []) hi)
    intro md h1 h2 h3 h4
    rcases h1 with (h1 | h1) | h1
    · exact .inl ⟨_, _, h1⟩
    · cases s with
      | value x => rw [h2 x rfl] at h1; exact .inr h1
      | panics => exact absurd rfl h4
      | fails md' bs => rw [h3 md' bs rfl] at h1; exact .inr h1
    · exact .inl ⟨_, _, h1⟩
  insertWith_out h hi := C04_insertWith_out_aligned hA.fits h _ _ _ hi
  pop env d h := by
    obtain ⟨e, h1, h2⟩ := (C02_popInto_aligned hA.fits h env).2 _ _ rfl
    have h3 := h2 d.code none
    rw [Dst.givenAs_run (lay' := ⟨_, _⟩)] at h3
    exact ⟨e, h1, h3⟩
  pop_nil env h := (C02_popInto_aligned hA.fits h env (τ := Unit)).1.mpr rfl
  remove {v xs env i d} h hi hc := by
    have := C05_removeInto_aligned hA.fits h env hi (d.code) none
    rw [← List.eraseIdx_eq_take_drop_succ, Dst.givenAs_run (lay' := ⟨xs[i].size, xs[i].align⟩)] at this
    exact this
  remove_drop {v xs env i} h hi hc := hc _ (List.getElem?_eq_getElem hi)
  remove_out h hi := C05_removeInto_out_aligned hA.fits h _ hi
  reserve {v xs env q} h he hc := by
    show (q.run c (alignedP c A) env v).Meets _ _ _
    rw [q.plain_run]
    refine (run_aligned hA.fits h he q.plain (by rw [q.plain_align]; exact isAlign_one_of hA.al)).mono (fun _ _ h => ⟨h.holds, h.drops⟩)
      (fun _ h => ⟨⟨h.1.holds, h.1.drops⟩, ?_⟩) (fun h => .inl ⟨_, _, h⟩)
    have := AVec.failing_short hA.fits h.2
    rwa [q.plain_slots, q.plain_bytes] at this
  tryReserve {v xs env q} h he hc := by
    have hshort : (AVec.implF hA.fits).Failing env v xs q.plain → AVec.Short c env (.tryReserve q) v xs := by
      intro h
      have := AVec.failing_short hA.fits h
      rwa [q.plain_slots, q.plain_bytes] at this
    show (q.attempt c (alignedP c A) env v).Meets _ _ _
    rw [q.plain_attempt]
    refine (attempt_aligned hA.fits h he q.plain (by rw [q.plain_align]; exact isAlign_one_of hA.al)).mono ?_
      (fun _ h => ⟨⟨h.2.1.holds, h.2.1.drops⟩, hshort h.2.2⟩) id
    rintro r v' (⟨rfl, h1⟩ | ⟨e, rfl, h1, h2, _⟩)
    · exact ⟨⟨h1.holds, h1.drops⟩, .inl rfl⟩
    · exact ⟨⟨h1.holds, h1.drops⟩, .inr (hshort h2)⟩
  shrink {v xs env q} h he hc :=
    (C18_shrink_aligned hA.fits h he q).mono (fun _ _ h => ⟨h.1, h.2.2.2⟩) (fun _ h => h) (fun h => h)
  get h hi := by
    obtain ⟨r, h1, _, h2, _⟩ := C06_get_aligned hA.fits h hi
    exact ⟨r, h1, h2⟩
  get_out h hi := (C06_get_out_aligned h hi).1
  store {v xs i bs} h hi hb := by
    obtain ⟨r, h', h1, h2, h3⟩ := C07_store_aligned hA.fits h hi hb
    refine ⟨r, _, h1, ?_, h3, rfl⟩
    show (Exec.get >>= _ : Exec _ _) v = _
    rw [Exec.get_bind, Exec.orUb_bind h2]; rfl
  keep {v xs i bs v' r} h hi hg hs j := by
    have h0 : (Exec.get >>= fun (v : AVec A β) => Exec.orUb (r.store v.heap bs) >>= fun h => Exec.set { v with heap := h } :
      Exec _ _) v = .ok () v' := hs
    rw [Exec.get_bind] at h0
    cases h1 : r.store v.heap bs with
    | none => rw [h1] at h0; cases h0
    | some m =>
      rw [h1] at h0
      obtain ⟨f, rfl⟩ := Ref.store_mem h1
      cases h0; rfl
  calls {v xs env ks} h hc := by
    obtain ⟨it, h1, _⟩ := C10_calls_aligned_partial hA.fits h ks hc
    show Option.map _ _ = _
    rw [h1]; rfl
  coveredMut h := h

/-! ## Sized elements -/

omit [Inhabited β] in
theorem SVec.memwrite_drops {sz al : Nat} {v v' : SVec sz al β} {i : Nat} {bs : List β} (h : SVec.memwrite c i bs v = .ok () v') :
    v'.drops = v.drops := by
  unfold SVec.memwrite at h
  rw [Exec.get_bind] at h
  by_cases hr : i + 1 ≤ v.capacity c ∧ bs.length ≤ sz
  · rw [Exec.require_bind hr] at h
    cases h; rfl
  · rw [Exec.bind_ub (show (Exec.require _ : Exec (SVec sz al β) Unit) v = .ub from if_neg hr)] at h
    cases h

/-- Sized elements. -/
def SVec.client {sz al : Nat} : Client c (sizedM (β := β) c sz al) where
  H := SVec.Holds c
  EnvOk _ := True
  Short := SVec.Short c
  Covered env op _ xs := SVec.Covered env op xs
  len h := h.len
  note h := ⟨⟨h.wf, h.len, h.mem, h.slotLen, h.cap, h.capMax⟩, rfl⟩
  push {v xs env x} h he hx hc := by
    refine (C01_push_sized_partial h hc env hx).mono (fun _ _ h => h) ?_ (fun h => h)
    rintro v' ⟨rfl, h2⟩
    exact ⟨⟨h, rfl⟩, h2⟩
  insert {v xs env x i} h he hx hc hi := by
    refine (C03_insert_sized_partial h (hc hi) env hx hi).mono (fun _ _ h => h) ?_ (fun h => h)
    rintro v' ⟨rfl, h2⟩
    exact ⟨⟨h, rfl⟩, h2⟩
  insert_out h hi := C03_insert_out_sized h _ _ hi
  pushWith {v xs env s} h he hw hc :=
    Src.meets (c := c) (s := s) (H := SVec.Holds c) (D := fun v' => v'.drops = v.drops) (xs := xs) (f := fun x => xs ++ [x])
      (why' := fun _ => v.NoSlot c env) (fun _ => v.NoSlot c env) (fun _ h _ _ _ => h.elim id id) (C04_pushWith_sized h env (Src.sound hw env []))
  insertWith {v xs env s i} h he hw hc hi :=
    Src.meets (c := c) (s := s) (H := SVec.Holds c) (D := fun v' => v'.drops = v.drops) (xs := xs) (f := fun x => xs.take i ++ x :: xs.drop i)
      (why' := fun _ => v.NoSlot c env) (fun _ => v.NoSlot c env) (fun _ h _ _ _ => h.elim id id)
      (C04_insertWith_sized h env (Src.sound hw env []) hi)
  insertWith_out h hi := C04_insertWith_out_sized h _ _ _ hi
  pop env d h := by
    obtain ⟨e, h1, h2⟩ := (C02_popInto_sized h env).2 _ _ rfl
    exact ⟨e, h1, h2 _ _⟩
  pop_nil env h := (C02_popInto_sized h env (τ := Unit)).1.mpr rfl
  remove {v xs env i d} h hi hc := by
    have h1 := C05_removeInto_sized h env hi (d.code) none
    rw [← List.eraseIdx_eq_take_drop_succ] at h1
    rw [Dst.given_run] at h1 ⊢
    have hgo : ∀ {ds t}, SameOutcome (run (Api.removeInto (sizedP c sz al) env i) d.code (v, none)) (.ok () (ds, t))
          (fun v' ds => v'.Holds c (xs.eraseIdx i) ∧ v'.drops = ds) (fun v' ds => v'.Holds c xs.dropLast ∧ v'.drops = ds) →
        SameOutcome (run (Api.removeInto (sizedP c sz al) env i) d.code (v, none)) (.ok () (ds, t))
          (fun v' ds => v'.Holds c (xs.eraseIdx i) ∧ v'.drops = ds) (fun v' ds => v'.Holds c xs ∧ v'.drops = ds) := by
      intro ds t h2
      obtain ⟨v', h3, h4⟩ := h2.ok
      rw [h3]
      exact ⟨rfl, h4⟩
    cases d with
    | take => exact hgo h1
    | forget => exact hgo h1
    | panics => exact hc.elim
    | drop =>
      have hp : env.dropPanics xs[i] = false := hc _ (List.getElem?_eq_getElem hi)
      rw [hp] at h1 ⊢
      exact hgo h1
  remove_drop {v xs env i} h hi hc := hc _ (List.getElem?_eq_getElem hi)
  remove_out h hi := C05_removeInto_out_sized h _ hi
  reserve {v xs env q} h he hc :=
    (SVec.run_any h env q hc).mono (fun _ _ h => ⟨h.holds, h.drops⟩)
      (fun _ h => ⟨⟨h.1, h.2.1⟩, h.2.2.2.2.1, fun hb => (h.2.2.2.2.2 hb).2⟩) (fun h => h.2)
  tryReserve {v xs env q} h he hc := by
    refine (SVec.attempt_any h env q hc).mono ?_
      (fun _ h => ⟨⟨h.2.1, h.2.2.1⟩, h.2.2.2.2.2.1, fun hb => absurd hb h.2.2.2.2.2.2⟩) id
    rintro r v' (⟨rfl, h1⟩ | ⟨e, rfl, h1, _, h2, h3⟩)
    · exact ⟨⟨h1.holds, h1.drops⟩, .inl rfl⟩
    · exact ⟨⟨h1.holds, h1.drops⟩, .inr ⟨h2, fun hb => ⟨e, (h3 hb).2⟩⟩⟩
  shrink {v xs env q} h he hc := C18_shrink_sized_partial h hc env q
  get h hi := by
    obtain ⟨r, h1, _, h2, _⟩ := C06_get_sized h hi
    exact ⟨r, h1, h2⟩
  get_out h hi := (C06_get_out_sized h hi).1
  store {v xs i bs} h hi hb := by
    obtain ⟨r, v', h1, h2, h3⟩ := C07_store_sized h hi (bs := bs) hb
    refine ⟨r, _, h1, ?_, h3, ?_⟩
    · show (Exec.require _ >>= _ : Exec _ _) v = _
      rw [Exec.require_bind (p := bs.length = sz) hb]; exact h2
    · exact SVec.memwrite_drops h2
  keep {v xs i bs v' r} h hi hg hs j := by
    have h0 : (Exec.require (bs.length = sz) >>= fun _ => SVec.memwrite c r.off bs : Exec _ _) v = .ok () v' := hs
    by_cases hb : bs.length = sz
    · rw [Exec.require_bind hb] at h0
      unfold SVec.memwrite at h0
      rw [Exec.get_bind] at h0
      by_cases hr : r.off + 1 ≤ v.capacity c ∧ bs.length ≤ sz
      · rw [Exec.require_bind hr] at h0
        cases h0; rfl
      · rw [Exec.bind_ub (show (Exec.require _ : Exec (SVec sz al β) Unit) v = .ub from if_neg hr)] at h0
        cases h0
    · rw [Exec.bind_ub (show (Exec.require _ : Exec (SVec sz al β) Unit) v = .ub from if_neg hb)] at h0
      cases h0
  calls {v xs env ks} h _ := by
    obtain ⟨it, h1, _⟩ := C08_C09_C10_calls_sized h ks
    show Option.map _ _ = _
    rw [h1]; rfl
  coveredMut h := h

end
end Verif
