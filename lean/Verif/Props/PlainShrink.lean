import Verif.Proofs.PlainShrink
import Verif.Props.Plain

/-!
# C36, C37, C64, C66 for dynamically aligned elements and programs that shrink, with conditions that do not refer to the vector

As `Props/Plain`, but shrinking is among the calls (`UVec.PlainShrink`).
-/

namespace Verif
section
variable {β : Type} [Inhabited β] {c : Cfg} {T : UTy} {hi : Nat}

/-- C36, dynamically aligned elements, programs that may shrink: the conditions can be checked on a list. `hi` is any bound for the
alignments that the program is concerned with. -/
theorem C36_program_unaligned_shrink_partial (hhi : IsAlign c hi) {v : UVec T β} {s : Ideal T β}
    (h : Tracks (unalignedM c T) (UVec.Holds c) v s) (hv : v.align ≤ hi) (ops : List (Env (Val T β) × Op T β))
    (hs : AlongList (fun env op xs => (env.Valid ∧ env.Exact) ∧ op.WF c xs ∧ UVec.PlainShrink c hi env op xs) ops s) :
    (runOps c (unalignedM c T) ops v).Meets
      (fun os v' => ∃ s', Tracks (unalignedM c T) (UVec.Holds c) v' s' ∧ Explains ops s os s' ∧
        (Along c (unalignedM c T) (UVec.Holds c) (fun env op v xs => ¬ UVec.Short c env op v xs) ops v s → (os, s') = listRun ops s))
      (fun _ => False)
      (¬ Along c (unalignedM c T) (UVec.Holds c) (fun env op v xs => ¬ UVec.Short c env op v xs ∧ ¬ op.Dies env.dropPanics xs) ops v s) :=
  C36_program_unaligned_partial h ops (UVec.plainShrink_along hhi hs h hv)

/-- C37, dynamically aligned elements: the whole life of a new vector in a program that may shrink it. -/
theorem C37_wholeLife_unaligned_shrink_partial (hhi : IsAlign c hi) (hu : IsAlign c c.usizeAlign) (hv : c.usizeAlign ≤ hi)
    (ops : List (Env (Val T β) × Op T β))
    (hs : AlongList (fun env op xs => (env.Valid ∧ env.Exact) ∧ op.WF c xs ∧ UVec.PlainShrink c hi env op xs) ops ⟨[], []⟩)
    (env : Env (Val T β)) :
    (runLife c (unalignedM c T) ops env (UVec.newAlignPtr c)).Meets
      (fun _ v' => Accounted ops v'.drops [] ∧ v'.heap.block = none ∧ v'.heap.leaks = 0)
      (fun v' => ∃ lost ds x, v'.drops = ds ++ [x] ∧ env.dropPanics x = true ∧ Accounted ops v'.drops lost)
      (¬ Along c (unalignedM c T) (UVec.Holds c) (fun env op v xs => ¬ UVec.Short c env op v xs ∧ ¬ op.Dies env.dropPanics xs) ops
        (UVec.newAlignPtr c) ⟨[], []⟩) :=
  C37_wholeLife_unaligned_partial hu ops (UVec.plainShrink_along hhi hs ⟨UVec.newAlignPtr_holds hu, rfl⟩ hv) env

/-- C64, two vectors of dynamically aligned elements, the same calls on both, shrinking among them. -/
theorem C64_unaligned_shrink_partial {d : Cfg} {hi' : Nat} (hhi : IsAlign c hi) (hhi' : IsAlign d hi') {v w : UVec T β} {s : Ideal T β}
    (hv : Tracks (unalignedM c T) (UVec.Holds c) v s) (hw : Tracks (unalignedM d T) (UVec.Holds d) w s)
    (hl : v.align ≤ hi) (hl' : w.align ≤ hi') {p q : List (Env (Val T β) × Op T β)} (hc : SameCalls p q)
    (hs : AlongList (fun env op xs => (env.Valid ∧ env.Exact) ∧ op.WF c xs ∧ UVec.PlainShrink c hi env op xs) p s)
    (hs' : AlongList (fun env op xs => (env.Valid ∧ env.Exact) ∧ op.WF d xs ∧ UVec.PlainShrink d hi' env op xs) q s)
    (hq : Along c (unalignedM c T) (UVec.Holds c) (fun env op v xs => ¬ UVec.Short c env op v xs ∧ ¬ op.Dies env.dropPanics xs) p v s)
    (hq' : Along d (unalignedM d T) (UVec.Holds d) (fun env op v xs => ¬ UVec.Short d env op v xs ∧ ¬ op.Dies env.dropPanics xs) q w s) :
    Indistinguishable (unalignedM c T) (unalignedM d T) (UVec.Holds c) (UVec.Holds d) (runOps c (unalignedM c T) p v)
      (runOps d (unalignedM d T) q w) :=
  C64_unaligned_partial hv hw hc (UVec.plainShrink_along hhi hs hv hl) (UVec.plainShrink_along hhi' hs' hw hl') hq hq'

/-- C66, dynamically aligned elements, interactive programs that may shrink. -/
theorem C66_program_unaligned_shrink_partial (hhi : IsAlign c hi) {v : UVec T β} {s : Ideal T β}
    (h : Tracks (unalignedM c T) (UVec.Holds c) v s) (hv : v.align ≤ hi) (σ : Strategy T β) (n : Nat)
    (hs : ThroughoutList (fun env op xs => (env.Valid ∧ env.Exact) ∧ op.WF c xs ∧ UVec.PlainShrink c hi env op xs) σ n [] s) :
    (interact c (unalignedM c T) σ n [] v).Meets
      (fun os v' => ∃ s', Tracks (unalignedM c T) (UVec.Holds c) v' s' ∧ ExplainsFor σ n [] s os s' ∧
        (Throughout c (unalignedM c T) (UVec.Holds c) (fun env op v xs => ¬ UVec.Short c env op v xs) σ n [] v s →
          (os, s') = listInteract σ n [] s))
      (fun _ => False)
      (¬ Throughout c (unalignedM c T) (UVec.Holds c) (fun env op v xs => ¬ UVec.Short c env op v xs ∧ ¬ op.Dies env.dropPanics xs)
        σ n [] v s) :=
  C66_program_unaligned_partial h σ n (UVec.plainShrink_throughout hhi hs h hv)

end

section
open Sample

/-- A vector is shrunk while it is empty, and with one and with two elements (the first of 16 bytes). -/
def progShrink : List (Env (Val Dyn Nat) × Op Dyn Nat) :=
  [(env, .shrink .toFit), (env, .push (dyn 4 (List.range 16))), (env, .shrink (.elems 1)), (env, .push (dyn 16 (List.range 16))),
    (env, .pop .take), (env, .shrink (.capBytesAlign 0 16 2)), (env, .push (dyn 2 [1, 2])), (env, .index 0), (env, .index 1)]

example : observed (runOps c64d (unalignedM c64d Dyn) progShrink (UVec.newAlignPtr c64d)) =
    some [[0], [0], [0], [0], 5 :: List.range 16, [0], [0], 5 :: List.range 16, [5, 1, 2]] := by decide +kernel

theorem progShrink_ok : AlongList (fun env op xs => (env.Valid ∧ env.Exact) ∧ op.WF c64d xs ∧ UVec.PlainShrink c64d 16 env op xs) progShrink ⟨[], []⟩ := by
  have he := And.intro (env_valid (X := Val Dyn Nat)) (env_exact (X := Val Dyn Nat))
  have hp : ∀ {x : Val Dyn Nat} {p : Val Dyn Nat → Bool} {s s' : Ideal Dyn Nat} {o : Out Dyn Nat}, (Op.push x).Allows True p s o s' → 16 ∣ x.size →
      (∀ y ∈ s.contents, 16 ∣ y.size) → ∀ y ∈ s'.contents, 16 ∣ y.size := by
    rintro x p s s' o (ha | ⟨_, _, _, rfl⟩) hx hs y hy
    · cases ha
      rcases List.mem_append.1 hy with hy | hy
      · exact hs y hy
      · rw [List.mem_singleton.1 hy]; exact hx
    · exact hs y hy
  have hq : ∀ {q : Shrinking} {p : Val Dyn Nat → Bool} {s s' : Ideal Dyn Nat} {o : Out Dyn Nat}, (Op.shrink q).Allows True p s o s' →
      s'.contents = s.contents := by
    rintro q p s s' o (ha | ⟨_, ha, _⟩) <;> cases ha
    rfl
  have ho : ∀ {p : Val Dyn Nat → Bool} {s s' : Ideal Dyn Nat} {o : Out Dyn Nat}, (Op.pop .take).Allows True p s o s' →
      (∀ y ∈ s.contents, 16 ∣ y.size) → ∀ y ∈ s'.contents, 16 ∣ y.size := by
    rintro p s s' o (ha | ⟨_, ha, _⟩) hs y hy
    · unfold Op.onList at ha
      dsimp only at ha
      split at ha <;> cases ha
      · exact hs y hy
      · exact hs y (List.dropLast_subset _ hy)
    · cases ha
  refine ⟨⟨he, trivial, ⟨0, by decide, rfl⟩, .inl (by decide), nofun⟩, fun _ s1 a1 => ?_⟩
  have k1 : ∀ y ∈ s1.contents, 16 ∣ y.size := by rw [hq a1]; exact nofun
  refine ⟨⟨he, dyn_wf 2 _ (by decide) (by decide) (by decide) c64d (.inr rfl), by decide, .inl (by decide)⟩, fun _ s2 a2 => ?_⟩
  have k2 := hp a2 (by decide) k1
  refine ⟨⟨he, trivial, ⟨63, by decide, rfl⟩, .inr (by decide), fun y hy => k2 y (List.dropLast_subset _ hy)⟩, fun _ s3 a3 => ?_⟩
  have k3 : ∀ y ∈ s3.contents, 16 ∣ y.size := by rw [hq a3]; exact k2
  refine ⟨⟨he, dyn_wf 4 _ (by decide) (by decide) (by decide) c64d (.inr rfl), by decide, .inl (by decide)⟩, fun _ s4 a4 => ?_⟩
  have k4 := hp a4 (by decide) k3
  refine ⟨⟨he, trivial, trivial⟩, fun _ s5 a5 => ?_⟩
  have k5 := ho a5 k4
  refine ⟨⟨he, trivial, ⟨1, by decide, rfl⟩, .inl (by decide), fun y hy => k5 y (List.dropLast_subset _ hy)⟩, fun _ s6 a6 => ?_⟩
  refine ⟨⟨he, dyn_wf 1 _ (by decide) (by decide) (by decide) c64d (.inr rfl), by decide, .inl (by decide)⟩, fun _ s7 a7 => ?_⟩
  exact ⟨⟨he, trivial, trivial⟩, fun _ _ _ => ⟨⟨he, trivial, trivial⟩, fun _ _ _ => trivial⟩⟩

attribute [local irreducible] runOps runLife

example := C36_program_unaligned_shrink_partial (c := c64d) (hi := 16) ⟨4, by decide, rfl⟩ (v := UVec.newAlignPtr c64d) (s := ⟨[], []⟩)
  ⟨UVec.newAlignPtr_holds c64d_usizeAlign, rfl⟩ (by decide) progShrink progShrink_ok
example := C37_wholeLife_unaligned_shrink_partial (c := c64d) (hi := 16) ⟨4, by decide, rfl⟩ c64d_usizeAlign (by decide) progShrink
  progShrink_ok env

/-- The same program on two vectors, if memory is not short. -/
example (hq : Along c64d (unalignedM c64d Dyn) (UVec.Holds c64d) (fun env op v xs => ¬ UVec.Short c64d env op v xs ∧ ¬ op.Dies env.dropPanics xs)
    progShrink (UVec.newAlignPtr c64d) ⟨[], []⟩) :=
  C64_unaligned_shrink_partial (c := c64d) (d := c64d) (hi := 16) (hi' := 16) ⟨4, by decide, rfl⟩ ⟨4, by decide, rfl⟩
    ⟨UVec.newAlignPtr_holds c64d_usizeAlign, rfl⟩ ⟨UVec.newAlignPtr_holds c64d_usizeAlign, rfl⟩ (by decide) (by decide) rfl progShrink_ok progShrink_ok hq hq

/-- A program that never ends: it adds an element, then takes it out and shrinks the vector, whatever has been observed. -/
def wave : Strategy Dyn Nat := fun h => some (env, if h.length % 3 = 0 then .push (dyn 8 [h.length, 1, 2, 3, 4, 5, 6, 7])
  else if h.length % 3 = 1 then .pop .take else .shrink .toFit)

theorem wave_ok : ∀ (n : Nat) h s, (∀ y ∈ s.contents, 8 ∣ y.size) →
    ThroughoutList (fun env op xs => (env.Valid ∧ env.Exact) ∧ op.WF c64d xs ∧ UVec.PlainShrink c64d 8 env op xs) wave n h s
  | 0, _, _, _ => trivial
  | n + 1, h, s, hs => by
    rintro e op ho
    obtain ⟨rfl, rfl⟩ := Prod.mk.inj (Option.some.inj ho)
    have h8 : 8 ∣ (dyn 8 [h.length, 1, 2, 3, 4, 5, 6, 7]).size := ⟨1, rfl⟩
    refine ⟨⟨⟨env_valid, env_exact⟩, ?_⟩, fun o s' ha => wave_ok n _ _ ?_⟩
    · split
      · exact ⟨dyn_wf 3 [h.length, 1, 2, 3, 4, 5, 6, 7] (by decide) ⟨1, rfl⟩ (by show 8 + 7 ≤ c64d.isizeMax; decide) c64d (.inr rfl),
          by show 8 ≤ 8; decide, .inl (by show 0 < 8; decide)⟩
      · split
        · exact ⟨trivial, trivial⟩
        · exact ⟨trivial, ⟨0, by decide, rfl⟩, .inl (Nat.dvd_zero _), fun y hy => hs y (List.dropLast_subset _ hy)⟩
    · split at ha
      · rcases ha with ha | ⟨_, _, _, rfl⟩
        · cases ha
          intro y hy
          rcases List.mem_append.1 hy with hy | hy
          · exact hs y hy
          · rw [List.mem_singleton.1 hy]; exact h8
        · exact hs
      · split at ha
        · rcases ha with ha | ⟨_, ha, _⟩
          · unfold Op.onList at ha
            dsimp only at ha
            split at ha <;> cases ha
            · exact hs
            · exact fun y hy => hs y (List.dropLast_subset _ hy)
          · cases ha
        · rcases ha with ha | ⟨_, ha, _⟩ <;> cases ha
          exact hs

example (n : Nat) := C66_program_unaligned_shrink_partial (c := c64d) (hi := 8) ⟨3, by decide, rfl⟩ (v := UVec.newAlignPtr c64d) (s := ⟨[], []⟩)
  ⟨UVec.newAlignPtr_holds c64d_usizeAlign, rfl⟩ (by decide) wave n (wave_ok n _ _ nofun)

end
end Verif
