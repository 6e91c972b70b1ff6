import Verif.Proofs.Combine
import Verif.Props.Emplacable

/-!
# C43, C47: emplacables made of emplacables

The parts may panic or end the process at any point (`Emplacable.Safe`). What is made of them is safe again, so that the theorems
on `push_with`, `insert_with`, `extend`, `box_new_with` and so on apply to it.
-/

namespace Verif
section
variable {σ τ : Type} {T : UTy} {β : Type} {c : Cfg} {sz al : Nat}

/-! ## C47: safe parts make safe emplacables -/

/-- C47 for a value. -/
theorem C47_value (env : Env (Val T β)) {x : Val T β} (hx : x.WF c) : (Source.value env x).Safe c :=
  ⟨fun s => C40_sound (C40_value env x s) hx, fun s => by
    rw [run_dropping_noUb]
    unfold Source.drop Source.value
    rw [Exec.pure_bind_apply]
    dsimp only
    rw [Exec.bind_apply]
    unfold Source.dropValue
    cases env.dropPanics x <;> simp⟩

/-- C47 for a text. -/
theorem C47_text (hb : 0 < c.bits) {bs : List β} (hl : bs.length ≤ c.isizeMax) : (Source.text bs : Emplacable σ (sliceTy 1 1) β).Safe c := by
  refine ⟨fun s => ⟨by rintro ⟨⟩, ?_, ?_, ?_, ?_, ?_⟩, by rintro s ⟨⟩⟩
  · rintro st s1 h; cases h
    show Layout.mk bs.length 1 = ⟨bs.length * 1, 1⟩
    rw [Nat.mul_one]
  · rintro st s1 h; cases h
    exact ⟨⟨0, hb, rfl⟩, Nat.one_dvd _, show bs.length * 1 + (1 - 1) ≤ _ by omega⟩
  · rintro st s1 h; cases h; rintro ⟨⟩
  · rintro st s1 bs' s2 h h'; cases h; cases h'
    exact ⟨(Nat.mul_one _).symm, by rintro ⟨⟩⟩
  · rintro st s1 bs' s2 h h'; cases h; cases h'

/-- C47 for a slice that is cloned: `clone` is an arbitrary program that returns an element. -/
theorem C47_cloned {clone : List β → Exec σ (List β)} (hc : ∀ x s, clone x s ≠ .ub)
    (hl : ∀ x s y s', clone x s = .ok y s' → y.length = sz) {xs : List (List β)} (ho : ElemOk c sz al xs.length) :
    (Source.cloned sz al clone xs).Safe c := by
  have hw := cloneToBuf_safe hc hl xs []
  refine ⟨fun s => ⟨by rintro ⟨⟩, ?_, ?_, ?_, ?_, ?_⟩, by rintro s ⟨⟩⟩
  · rintro st s1 h; cases h; rfl
  · rintro st s1 h; cases h
    exact ⟨ho.align_pow, Nat.dvd_trans ho.align_dvd (Nat.dvd_mul_left _ _), ho.size_le⟩
  · rintro st s1 h; cases h; exact (hw s).1
  · rintro st s1 bs' s2 h h'; cases h
    exact ⟨((hw s).2.1 bs' s2 h').trans (Nat.zero_add _), by rintro ⟨⟩⟩
  · rintro st s1 bs' s2 h h'; cases h
    exact Nat.le_trans ((hw s).2.2 bs' s2 h') (Nat.le_of_eq (Nat.zero_add _))

/-- C47 for an array of emplacables. -/
theorem C47_array {es : List (Emplacable σ (sizedTy sz al) β)} (ho : ElemOk c sz al es.length) (h : ∀ e ∈ es, e.Safe c) :
    (Source.array sz al es).Safe c := by
  have hes : ∀ e ∈ es, (∀ s, e.Sound c s) ∧ ∀ s, Source.drop e s ≠ .ub :=
    fun e he => ⟨(h e he).1, fun s => run_dropping_noUb.mp ((h e he).2 s)⟩
  have hw := writeItems_safe hes es.length []
  refine ⟨fun s => ⟨by rintro ⟨⟩, ?_, ?_, ?_, ?_, ?_⟩, fun s => ?_⟩
  · rintro st s1 h; cases h; rfl
  · rintro st s1 h; cases h
    exact ⟨ho.align_pow, Nat.dvd_trans ho.align_dvd (Nat.dvd_mul_left _ _), ho.size_le⟩
  · rintro st s1 h; cases h; exact (hw s).1
  · rintro st s1 bs' s2 h h'; cases h
    exact ⟨((hw s).2.1 bs' s2 h').trans (Nat.zero_add _), by rintro ⟨⟩⟩
  · rintro st s1 bs' s2 h h'; cases h
    exact Nat.le_trans ((hw s).2.2 bs' s2 h') (Nat.le_of_eq (Nat.zero_add _))
  · rw [run_dropping_noUb]
    unfold Source.drop Source.array
    rw [Exec.pure_bind_apply]
    dsimp only
    have := dropAll_noUb (fun e he => (hes e he).2) s
    cases hd : Source.dropAll es s with
    | ok a s' => rw [Exec.bind_ok hd]; rintro ⟨⟩
    | panic s' => rw [Exec.bind_panic hd]; rintro ⟨⟩
    | abort => rw [Exec.bind_abort hd]; rintro ⟨⟩
    | ub => exact absurd hd this

/-- C47 for `from_iter`: making the emplacable is not undefined behaviour, whatever length the iterator claims to have, and if it is
made, it is safe. -/
theorem C47_fromIter {es : List (Emplacable σ (sizedTy sz al) β)} {n : Nat} (hd : al ∣ sz) (h : ∀ e ∈ es, e.Safe c) (s : σ) :
    Source.fromIter c sz al es n s ≠ .ub ∧ ∀ e s', Source.fromIter c sz al es n s = .ok e s' → e.Safe c ∧ s' = s := by
  have hes : ∀ e ∈ es, (∀ s, e.Sound c s) ∧ ∀ s, Source.drop e s ≠ .ub :=
    fun e he => ⟨(h e he).1, fun s => run_dropping_noUb.mp ((h e he).2 s)⟩
  have hdr := dropAll_noUb (fun e he => (hes e he).2)
  have hun : ∀ r : Res σ (Emplacable σ (sliceTy sz al) β), (r = .panic s) →
      (match r with
        | .panic s' => match Source.dropAll es s' with
          | .ok _ s'' => .panic s''
          | .panic _ => .abort
          | .abort => .abort
          | .ub => .ub
        | r => r) ≠ (.ub : Res σ (Emplacable σ (sliceTy sz al) β)) ∧
      ∀ e s', (match r with
        | .panic s' => match Source.dropAll es s' with
          | .ok _ s'' => .panic s''
          | .panic _ => .abort
          | .abort => .abort
          | .ub => .ub
        | r => r) = (.ok e s' : Res σ (Emplacable σ (sliceTy sz al) β)) → e.Safe c ∧ s' = s := by
    rintro r rfl
    dsimp only
    have := hdr s
    cases hh : Source.dropAll es s with
    | ok a s' => exact ⟨by rintro ⟨⟩, by rintro e s' ⟨⟩⟩
    | panic s' => exact ⟨by rintro ⟨⟩, by rintro e s' ⟨⟩⟩
    | abort => exact ⟨by rintro ⟨⟩, by rintro e s' ⟨⟩⟩
    | ub => exact absurd hh this
  unfold Source.fromIter Exec.onUnwind
  by_cases h1 : sz * n ≤ c.usizeMax
  · by_cases h2 : al ∈ ValidAlign.variants c ∧ sz * n + (al - 1) ≤ c.isizeMax
    · rw [Exec.bind_ok (Exec.assert_pos h1 s), Exec.bind_ok (Exec.assert_pos h2 s)]
      refine ⟨by rintro ⟨⟩, ?_⟩
      rintro e s' he
      cases he
      refine ⟨?_, rfl⟩
      have hw := writeItems_safe hes n []
      have hal : ∃ k, k < c.bits ∧ al = 2 ^ k := by
        obtain ⟨k, hk, rfl⟩ := List.mem_map.mp h2.1
        exact ⟨k, List.mem_range.mp hk, Nat.one_shiftLeft k⟩
      refine ⟨fun s => ⟨by rintro ⟨⟩, ?_, ?_, ?_, ?_, ?_⟩, fun s => ?_⟩
      · rintro st s1 h; cases h
        show Layout.mk (sz * n) al = ⟨n * sz, al⟩
        rw [Nat.mul_comm]
      · rintro st s1 h; cases h
        exact ⟨hal, Nat.dvd_trans hd (Nat.dvd_mul_left _ _), show n * sz + (al - 1) ≤ _ by rw [Nat.mul_comm]; exact h2.2⟩
      · rintro st s1 h; cases h; exact (hw s).1
      · rintro st s1 bs' s2 h h'; cases h
        exact ⟨((hw s).2.1 bs' s2 h').trans (Nat.zero_add _), by rintro ⟨⟩⟩
      · rintro st s1 bs' s2 h h'; cases h
        exact Nat.le_trans ((hw s).2.2 bs' s2 h') (Nat.le_of_eq (Nat.zero_add _))
      · rw [run_dropping_noUb]
        unfold Source.drop Source.iterated
        rw [Exec.pure_bind_apply]
        dsimp only
        have := hdr s
        cases hd : Source.dropAll es s with
        | ok a s' => rw [Exec.bind_ok hd]; rintro ⟨⟩
        | panic s' => rw [Exec.bind_panic hd]; rintro ⟨⟩
        | abort => rw [Exec.bind_abort hd]; rintro ⟨⟩
        | ub => exact absurd hd this
    · rw [Exec.bind_ok (Exec.assert_pos h1 s), Exec.bind_panic (Exec.assert_neg h2 s)]
      exact hun _ rfl
  · rw [Exec.bind_panic (Exec.assert_neg h1 s)]
    exact hun _ rfl

/-- C47 for `unsize`: the metadata of the coercion describes a value of the same size and alignment. -/
theorem C47_unsize {U : UTy} {md : U.Meta} (hz : U.sizeOf md = sz) (ha : U.alignOf md = al) {e : Emplacable σ (sizedTy sz al) β}
    (h : e.Safe c) : Emplacable.Safe c (Source.unsize sz al U md e) := by
  have key : ∀ s st' s1, Source.unsize sz al U md e s = .ok st' s1 → ∃ st, e s = .ok st s1 ∧ st'.layout = ⟨sz, al⟩ ∧ st'.md = md ∧
      st'.write = st.write ∧ st'.finish = st.finish := by
    intro s st' s1 hs
    unfold Source.unsize at hs
    cases he : e s with
    | ok st s2 => rw [Exec.bind_ok he] at hs; cases hs; exact ⟨st, rfl, rfl, rfl, rfl, rfl⟩
    | panic s2 => rw [Exec.bind_panic he] at hs; cases hs
    | abort => rw [Exec.bind_abort he] at hs; cases hs
    | ub => rw [Exec.bind_ub he] at hs; cases hs
  refine ⟨fun s => ⟨?_, ?_, ?_, ?_, ?_, ?_⟩, fun s => ?_⟩
  · unfold Source.unsize
    have := (h.1 s).noUb
    cases he : e s with
    | ok st s2 => rw [Exec.bind_ok he]; rintro ⟨⟩
    | panic s2 => rw [Exec.bind_panic he]; rintro ⟨⟩
    | abort => rw [Exec.bind_abort he]; rintro ⟨⟩
    | ub => exact absurd he this
  · intro st' s1 hs
    obtain ⟨st, h1, h2, h3, _⟩ := key s st' s1 hs
    rw [h2, h3, hz, ha]
  · intro st' s1 hs
    obtain ⟨st, h1, h2, h3, _⟩ := key s st' s1 hs
    have hm := (h.1 s).metaOk st s1 h1
    rw [h3]
    exact ⟨by rw [ha]; exact hm.align_pow, by rw [ha, hz]; exact hm.align_dvd, by rw [ha, hz]; exact hm.size_le⟩
  · intro st' s1 hs
    obtain ⟨st, h1, _, _, h4, _⟩ := key s st' s1 hs
    rw [h4]; exact (h.1 s).writeNoUb st s1 h1
  · intro st' s1 bs s2 hs hw
    obtain ⟨st, h1, _, h3, h4, h5⟩ := key s st' s1 hs
    rw [h4] at hw
    rw [h3, h5, hz]
    exact (h.1 s).done st s1 bs s2 h1 hw
  · intro st' s1 bs s2 hs hw
    obtain ⟨st, h1, _, h3, h4, _⟩ := key s st' s1 hs
    rw [h4] at hw
    rw [h3, hz]
    exact (h.1 s).unwind st s1 bs s2 h1 hw
  · have h0 := run_dropping_noUb.mp (h.2 s)
    rw [run_dropping_noUb]
    have : Source.drop (Source.unsize sz al U md e) s = Source.drop e s := by
      unfold Source.drop Source.unsize
      cases he : e s with
      | ok st s2 => rw [Exec.bind_assoc_apply, Exec.bind_ok he, Exec.bind_ok he]; rfl
      | panic s2 => rw [Exec.bind_assoc_apply, Exec.bind_panic he, Exec.bind_panic he]
      | abort => rw [Exec.bind_assoc_apply, Exec.bind_abort he, Exec.bind_abort he]
      | ub => rw [Exec.bind_assoc_apply, Exec.bind_ub he, Exec.bind_ub he]
    rw [this]; exact h0

/-- C47 for an array turned into a slice. -/
theorem C47_arrayToSlice {n : Nat} {e : Emplacable σ (Source.arrayTy sz al n) β} (h : e.Safe c) :
    (Source.arrayToSlice sz al n e).Safe c :=
  C47_unsize (U := sliceTy sz al) (md := n) rfl rfl h

/-- C47 for a `str` turned into bytes. -/
theorem C47_strToBytes {e : Emplacable σ (sliceTy 1 1) β} (h : e.Safe c) : Emplacable.Safe c (Source.strToBytes e) := by
  have : Source.strToBytes e = e := by
    funext s
    unfold Source.strToBytes
    cases he : (e : Exec σ _) s with
    | ok st s2 => rfl
    | panic s2 => rfl
    | abort => rfl
    | ub => rfl
  rw [this]; exact h

/-! ## C43: an item that unwinds -/

/-- The loop of `from_iter` and of arrays when an item unwinds: what is left is dropped. -/
theorem writeItems_unwinds {pre post : List (Emplacable σ (sizedTy sz al) β)} {e : Emplacable σ (sizedTy sz al) β} {n : Nat} (hn : pre.length < n)
    {s s1 s2 : σ} {xs : List (Val (sizedTy sz al) β)} (hd : Delivered pre s xs s1) (hs : AllSized xs) (he : e.Sound c s1) (hb : e.Breaks s1 s2) :
    (∀ s3, Dropped post s2 s3 → ∃ bs, Source.writeItems sz n (pre ++ e :: post) [] s = .unwind bs s3) ∧
    (∀ p1 d p2 s3 s4 s5, post = p1 ++ d :: p2 → Dropped p1 s2 s3 → run d Sink.dropping (s3, ()) = .panic (s4, ()) → Dropped p2 s4 s5 →
      Source.writeItems sz n (pre ++ e :: post) [] s = .abort) := by
  obtain ⟨k, rfl⟩ : ∃ k, n = pre.length + (k + 1) := ⟨n - pre.length - 1, by omega⟩
  rw [writeItems_delivered hd hs (k + 1) (e :: post) []]
  obtain ⟨acc', h1⟩ := writeItems_breaks he hb k post ([] ++ (xs.map Val.bytes).flatten)
  rw [h1]
  unfold Source.unwound
  refine ⟨fun s3 h3 => ⟨acc', by rw [h3.dropAll]⟩, ?_⟩
  rintro p1 d p2 s3 s4 s5 rfl h3 h4 h5
  rw [dropAll_panics h3 h4 h5]

/-- C43: if an item unwinds, before or after it has delivered its element, the remaining items are dropped, and the emplacable unwinds; if
the destructor of one of the remaining items panics too, the process ends. -/
theorem C43_item_unwinds {pre post : List (Emplacable σ (sizedTy sz al) β)} {e : Emplacable σ (sizedTy sz al) β} {n : Nat} (ho : ElemOk c sz al n)
    (hn : pre.length < n) {s s1 s2 : σ} {xs : List (Val (sizedTy sz al) β)} (hd : Delivered pre s xs s1) (hs : AllSized xs)
    (he : e.Sound c s1) (hb : e.Breaks s1 s2) :
    ∃ em, Source.fromIter c sz al (pre ++ e :: post) n s = .ok em s ∧
      (∀ s3, Dropped post s2 s3 → em.Unwinds s s3) ∧
      (∀ p1 d p2 s3 s4 s5, post = p1 ++ d :: p2 → Dropped p1 s2 s3 → run d Sink.dropping (s3, ()) = .panic (s4, ()) → Dropped p2 s4 s5 →
        em.Aborts s) := by
  obtain ⟨h1, h2⟩ := writeItems_unwinds (post := post) hn hd hs he hb
  refine ⟨_, fromIter_ok ho _ s, fun s3 h3 => ?_, fun p1 d p2 s3 s4 s5 e0 h3 h4 h5 => ?_⟩
  · obtain ⟨bs, h4⟩ := h1 s3 h3
    exact .inr ⟨_, s, bs, rfl, h4⟩
  · exact .inr ⟨_, s, rfl, .inl (h2 p1 d p2 s3 s4 s5 e0 h3 h4 h5)⟩

/-- The same for an array of emplacables. -/
theorem C43_array_unwinds {pre post : List (Emplacable σ (sizedTy sz al) β)} {e : Emplacable σ (sizedTy sz al) β}
    {s s1 s2 : σ} {xs : List (Val (sizedTy sz al) β)} (hd : Delivered pre s xs s1) (hs : AllSized xs)
    (he : e.Sound c s1) (hb : e.Breaks s1 s2) :
    (∀ s3, Dropped post s2 s3 → (Source.array sz al (pre ++ e :: post)).Unwinds s s3) ∧
    (∀ p1 d p2 s3 s4 s5, post = p1 ++ d :: p2 → Dropped p1 s2 s3 → run d Sink.dropping (s3, ()) = .panic (s4, ()) → Dropped p2 s4 s5 →
        (Source.array sz al (pre ++ e :: post)).Aborts s) := by
  obtain ⟨h1, h2⟩ := writeItems_unwinds (n := (pre ++ e :: post).length) (post := post) (by simp) hd hs he hb
  refine ⟨fun s3 h3 => ?_, fun p1 d p2 s3 s4 s5 e0 h3 h4 h5 => ?_⟩
  · obtain ⟨bs, h4⟩ := h1 s3 h3
    exact .inr ⟨_, s, bs, rfl, h4⟩
  · exact .inr ⟨_, s, rfl, .inl (h2 p1 d p2 s3 s4 s5 e0 h3 h4 h5)⟩

end

/-! The hypotheses can be met: the second of three items panics when it is used. -/

namespace Sample

/-- An item that panics before it delivers anything. -/
def failing : Emplacable (Source.St (Val (sizedTy 1 1) Nat) Nat) (sizedTy 1 1) Nat := fun s => .panic s

theorem failing_safe : failing.Safe c64 :=
  ⟨fun s => ⟨by rintro ⟨⟩, by rintro st s1 ⟨⟩, by rintro st s1 ⟨⟩, by rintro st s1 ⟨⟩, by rintro st s1 bs s2 ⟨⟩, by rintro st s1 bs s2 ⟨⟩⟩,
    by rintro s ⟨⟩⟩

end Sample

open Sample

example : (Source.array 1 1 [Source.value env (byte 1), failing, Source.value envPanics (byte 2)]).Safe c64 :=
  C47_array ⟨⟨0, by decide, rfl⟩, Nat.one_dvd _, by decide⟩ (by
    have hb : ∀ b, (byte b).WF c64 := fun b => ⟨rfl, ⟨0, by decide, rfl⟩, Nat.one_dvd _, show 1 + (1 - 1) ≤ c64.isizeMax by decide⟩
    intro e he
    simp only [List.mem_cons, List.not_mem_nil, or_false] at he
    rcases he with rfl | rfl | rfl
    · exact C47_value _ (hb 1)
    · exact failing_safe
    · exact C47_value _ (hb 2))

example : (Source.array 1 1 ([Source.value env (byte 1)] ++ failing :: [byte 2].map (Source.value env))).Unwinds vecSt { vecSt with drops := [byte 2] } :=
  (C43_array_unwinds (delivered_values env [byte 1] vecSt) (by intro x hx; simp at hx; rcases hx with rfl; rfl) (failing_safe.1 _)
    (.inl (.inl rfl))).1 _ (dropped_values env [byte 2] (fun _ _ => rfl) vecSt)

example : (Source.array 1 1 ([Source.value env (byte 1)] ++ failing :: [Source.value envPanics (byte 2)])).Aborts vecSt :=
  (C43_array_unwinds (delivered_values env [byte 1] vecSt) (by intro x hx; simp at hx; rcases hx with rfl; rfl) (failing_safe.1 _)
    (.inl (.inl rfl))).2 [] _ [] _ _ _ rfl (.nil _) rfl (.nil _)

end Verif
