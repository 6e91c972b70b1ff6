import Verif.Proofs.Sources

/-!
# Lemmas about emplacables made of emplacables
-/

namespace Verif
variable {σ τ : Type} {T : UTy} {β : Type} {c : Cfg} {sz al : Nat}

theorem run_dropping_noUb {e : Emplacable σ T β} {s : σ} {t : τ} :
    run e Sink.dropping (s, t) ≠ .ub ↔ Source.drop e s ≠ .ub := by
  rw [run_dropping]
  unfold liftL
  dsimp only
  cases Source.drop e s <;> simp

theorem dropAll_noUb {es : List (Emplacable σ T β)} (h : ∀ e ∈ es, ∀ s, Source.drop e s ≠ .ub) (s : σ) :
    Source.dropAll es s ≠ .ub := by
  induction es generalizing s with
  | nil => intro h; cases h
  | cons e es ih =>
    have ih := ih (fun e' he' => h e' (by simp [he']))
    show (Exec.onUnwind (Source.drop e) (Source.dropAll es) >>= fun _ => Source.dropAll es) s ≠ _
    rw [Exec.bind_apply]
    unfold Exec.onUnwind
    have h1 := h e (by simp) s
    cases hd : Source.drop e s with
    | ok a s' => exact ih s'
    | panic s' =>
      dsimp only
      have h2 := ih s'
      cases hc : Source.dropAll es s' with
      | ok a s'' => simp
      | panic s'' => simp
      | abort => simp
      | ub => exact absurd hc h2
    | abort => simp
    | ub => exact absurd hd h1

theorem unwound_safe {es : List (Emplacable σ T β)} (h : ∀ e ∈ es, ∀ s, Source.drop e s ≠ .ub) (acc : List β) (s : σ) :
    Source.unwound es acc s ≠ .ub ∧ (∀ bs s', Source.unwound es acc s ≠ .done bs s') ∧
      ∀ bs s', Source.unwound es acc s = .unwind bs s' → bs = acc := by
  have h1 := dropAll_noUb h s
  unfold Source.unwound
  cases hd : Source.dropAll es s with
  | ok a s' => simp_all
  | panic s' => simp
  | abort => simp
  | ub => exact absurd hd h1

/-- The loop over the items of an array or iterator is safe if the items are. -/
theorem writeItems_safe {es : List (Emplacable σ (sizedTy sz al) β)} (h : ∀ e ∈ es, (∀ s, e.Sound c s) ∧ ∀ s, Source.drop e s ≠ .ub)
    (n : Nat) (acc : List β) (s : σ) :
    Source.writeItems sz n es acc s ≠ .ub ∧
    (∀ bs s', Source.writeItems sz n es acc s = .done bs s' → bs.length = acc.length + n * sz) ∧
    (∀ bs s', Source.writeItems sz n es acc s = .unwind bs s' → bs.length ≤ acc.length + n * sz) := by
  induction es generalizing n acc s with
  | nil =>
    cases n with
    | zero => simp +contextual [Source.writeItems, Source.dropAll]
    | succ n => simp +contextual [Source.writeItems]
  | cons e es ih =>
    cases n with
    | zero =>
      have h1 := dropAll_noUb (fun e he => (h e he).2) s
      unfold Source.writeItems
      cases hd : Source.dropAll (e :: es) s with
      | ok a s' => simp +contextual
      | panic s' => simp +contextual
      | abort => simp
      | ub => exact absurd hd h1
    | succ n =>
      have hes : ∀ e ∈ es, (∀ s, e.Sound c s) ∧ ∀ s, Source.drop e s ≠ .ub := fun e he => h e (by simp [he])
      have ih := ih hes
      have hu := fun acc s => unwound_safe (fun e he => (hes e he).2) (acc := acc) (s := s)
      have hs := (h e (by simp)).1 s
      have hmul : (n + 1) * sz = n * sz + sz := by rw [Nat.add_mul, Nat.one_mul]
      have unw : ∀ acc' s', acc'.length ≤ acc.length + (n + 1) * sz →
          Source.unwound es acc' s' ≠ .ub ∧
          (∀ bs s'', Source.unwound es acc' s' = .done bs s'' → bs.length = acc.length + (n + 1) * sz) ∧
          (∀ bs s'', Source.unwound es acc' s' = .unwind bs s'' → bs.length ≤ acc.length + (n + 1) * sz) := by
        intro acc' s' hle
        obtain ⟨h1, h2, h3⟩ := hu acc' s'
        exact ⟨h1, fun bs s'' h => absurd h (h2 bs s''), fun bs s'' h => by rw [h3 bs s'' h]; exact hle⟩
      rw [Source.writeItems]
      cases he : e s with
      | ub => exact absurd he hs.noUb
      | abort => simp
      | panic s' => exact unw acc s' (Nat.le_add_right _ _)
      | ok st s1 =>
        dsimp only
        cases hw : st.write s1 with
        | ub => exact absurd hw (hs.writeNoUb st s1 he)
        | abort => simp
        | unwind bs s' =>
          have hl : bs.length ≤ sz := hs.unwind st s1 bs s' he hw
          dsimp only
          rw [if_pos hl]
          exact unw _ _ (by rw [List.length_append, hmul]; omega)
        | done bs s2 =>
          obtain ⟨hl, hf⟩ := hs.done st s1 bs s2 he hw
          have hl : bs.length = sz := hl
          dsimp only
          rw [if_pos hl]
          cases hfi : st.finish s2 with
          | ub => exact absurd hfi hf
          | abort => simp
          | panic s' => exact unw _ _ (by rw [List.length_append, hmul]; omega)
          | ok u s' =>
            dsimp only
            obtain ⟨h1, h2, h3⟩ := ih n (acc ++ bs) s'
            refine ⟨h1, fun bs' s'' h => ?_, fun bs' s'' h => ?_⟩
            · rw [h2 bs' s'' h, List.length_append, hmul]; omega
            · have := h3 bs' s'' h
              rw [List.length_append] at this
              rw [hmul]; omega

/-- An item that unwinds ends the loop; what is left is dropped. -/
theorem writeItems_breaks {e : Emplacable σ (sizedTy sz al) β} {s s' : σ} (hs : e.Sound c s) (hb : e.Breaks s s') (n : Nat)
    (rest : List (Emplacable σ (sizedTy sz al) β)) (acc : List β) :
    ∃ acc', Source.writeItems sz (n + 1) (e :: rest) acc s = Source.unwound rest acc' s' := by
  rcases hb with (h | ⟨st, s1, bs, h1, h2⟩) | ⟨x, st, s1, s2, h1, _, h3, h4⟩
  · exact ⟨acc, by rw [Source.writeItems, h]⟩
  · refine ⟨acc ++ bs, ?_⟩
    rw [Source.writeItems, h1]
    dsimp only
    rw [h2]
    dsimp only
    rw [if_pos (show bs.length ≤ sz from hs.unwind st s1 bs s' h1 h2)]
  · refine ⟨acc ++ x.bytes, ?_⟩
    rw [Source.writeItems, h1]
    dsimp only
    rw [h3]
    dsimp only
    rw [if_pos (show x.bytes.length = sz from (hs.done st s1 _ s2 h1 h3).1), h4]

theorem drop_eq_of_run {e : Emplacable σ T β} {s : σ} {r : Res σ Unit}
    (h : run e Sink.dropping (s, ()) = (match r with
      | .ok u s' => .ok u (s', ()) | .panic s' => .panic (s', ()) | .abort => .abort | .ub => .ub)) : Source.drop e s = r := by
  rw [run_dropping] at h
  unfold liftL at h
  dsimp only at h
  cases hd : Source.drop e s <;> rw [hd] at h <;> cases r <;> simp_all

/-- A second panic while the rest is dropped ends the process. -/
theorem dropAll_panics {es fs : List (Emplacable σ T β)} {d : Emplacable σ T β} {s s1 s2 s3 : σ} (h1 : Dropped es s s1)
    (h2 : run d Sink.dropping (s1, ()) = .panic (s2, ())) (h3 : Dropped fs s2 s3) :
    Source.dropAll (es ++ d :: fs) s = .panic s3 := by
  induction h1 with
  | nil s =>
    show (Exec.onUnwind (Source.drop d) (Source.dropAll fs) >>= fun _ => Source.dropAll fs) s = _
    rw [Exec.bind_panic]
    unfold Exec.onUnwind
    rw [drop_eq_of_run (r := .panic s2) h2]
    dsimp only
    rw [h3.dropAll]
  | cons hd _ ih =>
    rename_i e es s s1' s' _
    show (Exec.onUnwind (Source.drop e) (Source.dropAll (es ++ d :: fs)) >>= fun _ => Source.dropAll (es ++ d :: fs)) s = _
    rw [Exec.bind_ok (a := ()) (s' := s1') (by unfold Exec.onUnwind; rw [drop_eq_of_run (r := .ok () s1') hd])]
    exact ih h2

theorem cloneToBuf_safe {clone : List β → Exec σ (List β)} (hc : ∀ x s, clone x s ≠ .ub)
    (hl : ∀ x s y s', clone x s = .ok y s' → y.length = sz) (xs : List (List β)) (acc : List β) (s : σ) :
    Source.cloneToBuf sz clone xs acc s ≠ .ub ∧
    (∀ bs s', Source.cloneToBuf sz clone xs acc s = .done bs s' → bs.length = acc.length + xs.length * sz) ∧
    (∀ bs s', Source.cloneToBuf sz clone xs acc s = .unwind bs s' → bs.length ≤ acc.length + xs.length * sz) := by
  induction xs generalizing acc s with
  | nil => simp +contextual [Source.cloneToBuf]
  | cons x xs ih =>
    have hmul : (x :: xs).length * sz = xs.length * sz + sz := by rw [List.length_cons, Nat.add_mul, Nat.one_mul]
    rw [Source.cloneToBuf]
    cases h : clone x s with
    | ub => exact absurd h (hc x s)
    | abort => simp
    | panic s' => simp +contextual
    | ok y s' =>
      have hy := hl x s y s' h
      dsimp only
      rw [if_pos hy]
      obtain ⟨h1, h2, h3⟩ := ih (acc ++ y) s'
      refine ⟨h1, fun bs s'' h => ?_, fun bs s'' h => ?_⟩
      · rw [h2 bs s'' h, List.length_append, hmul]; omega
      · have := h3 bs s'' h
        rw [List.length_append] at this
        rw [hmul]; omega

end Verif
