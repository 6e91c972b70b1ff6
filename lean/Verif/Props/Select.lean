import Verif.Spec.Select
import Verif.Props.History
import Verif.Props.Plain
import Verif.Props.Life
import Verif.Props.CStr
import Verif.Proofs.Owned
import Verif.Proofs.Select

/-!
# C70: every type is stored by the implementation that suits it
-/

namespace Verif
open Sample

section
variable {β : Type} [Inhabited β] {c : Cfg}

/-! ## The choice -/

/-- C70: the standard vector is used exactly for sized types. -/
theorem C70_vec (t : RTy) : (∃ s a, t.impl c = .vec s a) ↔ ∃ s a, t = .sized s a := by
  constructor
  · rintro ⟨s, a, h⟩
    rcases t with ⟨s', a'⟩ | ⟨_ | _ | _ | _ | _⟩ <;> first | exact ⟨_, _, rfl⟩ | cases h
  · rintro ⟨s, a, rfl⟩
    exact ⟨s, a, rfl⟩

/-- C70: the implementation that keeps track of alignments is used exactly for trait objects and for structs with an unsized last
field. -/
theorem C70_unaligned (t : RTy) :
    (∃ T, t.impl c = .unaligned T) ↔ t = .unsized .dyn ∨ ∃ s a d, t = .unsized (.record s a d) := by
  constructor
  · rintro ⟨T, h⟩
    rcases t with ⟨s', a'⟩ | ⟨_ | _ | _ | _ | _⟩ <;> first | exact .inl rfl | exact .inr ⟨_, _, _, rfl⟩ | cases h
  · rintro (rfl | ⟨s, a, d, rfl⟩) <;> exact ⟨_, rfl⟩

/-- C70: the implementation that stores elements without padding is used exactly for slices, `str` and `CStr`. -/
theorem C70_aligned (t : RTy) :
    (∃ A, t.impl c = .aligned A) ↔ (∃ s a, t = .unsized (.slice s a)) ∨ t = .unsized .str ∨ t = .unsized .cstr := by
  constructor
  · rintro ⟨A, h⟩
    rcases t with ⟨s', a'⟩ | ⟨_ | _ | _ | _ | _⟩ <;>
      first | exact .inl ⟨_, _, rfl⟩ | exact .inr (.inl rfl) | exact .inr (.inr rfl) | cases h
  · rintro (⟨s, a, rfl⟩ | rfl | rfl) <;> exact ⟨_, rfl⟩

omit [Inhabited β] in
/-- C70: the implementation stores elements of the type. -/
theorem C70_type (t : RTy) : (t.impl c).ty = t.ty c := by
  rcases t with ⟨s', a'⟩ | ⟨_ | _ | _ | _ | _⟩ <;> rfl

/-! ## The types are described correctly -/

/-- C70: the layout of a struct with an unsized last field, for any metadata. -/
theorem C70_record (s a : Nat) (d : DTy) (md : (d.ty c).Meta) (h1 : IsAlign c a) (h2 : IsAlign c ((d.ty c).alignOf md)) :
    RecordLayout s a ((d.ty c).sizeOf md) ((d.ty c).alignOf md) (recordOffset s ((d.ty c).alignOf md))
      (((DTy.record s a d).ty c).sizeOf md) (((DTy.record s a d).ty c).alignOf md) := by
  have hm : 0 < max a ((d.ty c).alignOf md) := Nat.lt_of_lt_of_le h1.pos (Nat.le_max_left _ _)
  have e1 : recordOffset s ((d.ty c).alignOf md) = padTo ((d.ty c).alignOf md) s := roundUp_eq h2.pos s
  have e2 : ((DTy.record s a d).ty c).sizeOf md =
      padTo (max a ((d.ty c).alignOf md)) (recordOffset s ((d.ty c).alignOf md) + (d.ty c).sizeOf md) := roundUp_eq hm _
  have e3 : ((DTy.record s a d).ty c).alignOf md = max a ((d.ty c).alignOf md) := rfl
  rw [e2, e3, e1]
  exact ⟨le_padTo h2.pos _, dvd_padTo _ _, padTo_lt h2.pos _, le_padTo hm _, dvd_padTo _ _, padTo_lt hm _,
    h1.dvd_of_le (h1.max h2) (Nat.le_max_left _ _), h2.dvd_of_le (h1.max h2) (Nat.le_max_right _ _), by omega⟩

omit [Inhabited β] in
/-- C70: for every type and all metadata that exist, the alignment is a power of two that divides the size. So the values of the type
have the layout that the theorems about vectors assume (`Val.WF`), provided they fit into the address space. -/
theorem C70_layout (hb : 0 < c.bits) : ∀ (d : DTy), d.Valid c → ∀ md : (d.ty c).Meta, d.MetaValid c md →
    SizedLayout c ((d.ty c).sizeOf md) ((d.ty c).alignOf md)
  | .slice _ _, h, md, _ => ⟨h.1, Nat.dvd_mul_left_of_dvd h.2 md⟩
  | .str, _, _, _ => ⟨.one hb, Nat.one_dvd _⟩
  | .cstr, _, _, _ => ⟨.one hb, Nat.one_dvd _⟩
  | .dyn, _, _, h => h
  | .record s a d, ⟨h1, h2⟩, md, h => by
    have h3 := (C70_layout hb d h2 md h).1
    refine ⟨?_, (C70_record s a d md h1 h3).dvd⟩
    rcases (C70_record s a d md h1 h3).least with h4 | h4 <;> rw [h4] <;> assumption

/-! ## The implementations are suited -/

/-- C70: the type meets what the implementation for statically aligned elements relies on. Partial: for slices of elements of size zero
it does not, their length is lost (`C70_lawful_iff`, `C28_counterexample`). -/
theorem C70_lawful_partial (hb : 0 < c.bits) (hu : IsAlign c c.usizeAlign) {t : RTy} (ht : t.Valid c) (hz : ¬ t.LosesLength) {A : ATy}
    (h : t.impl c = .aligned A) : A.Lawful c := by
  rcases t with ⟨s', a'⟩ | ⟨s, a⟩ | _ | _ | _ | _ <;> cases h
  · exact C28_slice_lawful ht.1 (Nat.pos_of_ne_zero hz)
  · exact ATy.str_lawful hb
  · exact C60_cstr_lawful hu

/-- C70: it does so exactly if the type is not a slice of elements of size zero. -/
theorem C70_lawful_iff (hb : 0 < c.bits) (hu : IsAlign c c.usizeAlign) {t : RTy} (ht : t.Valid c) {A : ATy}
    (h : t.impl c = .aligned A) : A.Lawful c ↔ ¬ t.LosesLength := by
  refine ⟨fun hA hz => ?_, fun hz => C70_lawful_partial hb hu ht hz h⟩
  rcases t with ⟨s', a'⟩ | ⟨s, a⟩ | _ | _ | _ | _ <;> try exact hz
  cases h
  cases (show s = 0 from hz)
  exact absurd (hA.keeps (1 : Nat)) (by show ¬ (0 : Nat) = 1; decide)

/-- C70: `ALIGN` is the alignment of all values exactly if the type is not `CStr` (or the alignment of a reference is 1). -/
theorem C70_exact_iff {t : RTy} {A : ATy} (h : t.impl c = .aligned A) (hn : ∃ n : Nat, 0 < n ∧ n + (c.usizeAlign - 1) ≤ c.isizeMax) :
    A.Exact ↔ (t = .unsized .cstr → c.usizeAlign = 1) := by
  obtain ⟨n, hn⟩ := hn
  rcases t with ⟨s', a'⟩ | ⟨s, a⟩ | _ | _ | _ | _ <;> cases h
  · exact ⟨fun _ h => (nomatch h), fun _ => C60_slice⟩
  · exact ⟨fun _ h => (nomatch h), fun _ => C60_str⟩
  · exact ⟨fun h _ => (h (⟨n, hn⟩ : (cstrTy c).Meta)).symm, fun h _ => (h rfl).symm⟩

/-- C70, as documented (src/lib.rs:164–168, 180–181): of a slice only the offset is recorded, of `str` and `CStr` the metadata as well. -/
theorem C70_recorded {t : RTy} {A : ATy} (h : t.impl c = .aligned A) :
    ((∃ s a, t = .unsized (.slice s a)) → A.R = Unit) ∧ (t = .unsized .str ∨ t = .unsized .cstr → A.R = A.ty.Meta) := by
  rcases t with ⟨s', a'⟩ | ⟨s, a⟩ | _ | _ | _ | _ <;> cases h
  · exact ⟨fun _ => rfl, fun h => by rcases h with h | h <;> cases h⟩
  · exact ⟨fun ⟨_, _, h⟩ => (by cases h), fun _ => rfl⟩
  · exact ⟨fun ⟨_, _, h⟩ => (by cases h), fun _ => rfl⟩

/-- C70: a new vector is empty, for every type. -/
theorem C70_new_partial (hb : 0 < c.bits) (hu : IsAlign c c.usizeAlign) {t : RTy} (ht : t.Valid c) (hz : ¬ t.LosesLength) :
    Tracks ((t.impl c).machine (β := β) c) ((t.impl c).Holds c) ((t.impl c).new c) ⟨[], []⟩ := by
  have hL : ∀ A, t.impl c = .aligned A → A.Lawful c := fun _ => C70_lawful_partial hb hu ht hz
  generalize t.impl c = i at hL
  cases i with
  | vec s a => exact ⟨SVec.new_holds, rfl⟩
  | aligned A => exact ⟨AVec.new_holds (hL _ rfl).fits, rfl⟩
  | unaligned T => exact ⟨UVec.newAlignPtr_represents hu, rfl⟩

/-- C70: for every type, a program of covered calls on the vector that Rust chooses for it does what it would do on a list; see C36. -/
theorem C70_program_partial (hb : 0 < c.bits) (hu : IsAlign c c.usizeAlign) {t : RTy} (ht : t.Valid c) (hz : ¬ t.LosesLength)
    {v : (t.impl c).Vec β} {s : Ideal (t.impl c).ty β} (h : Tracks ((t.impl c).machine c) ((t.impl c).Holds c) v s)
    (ops : List (Env (Val (t.impl c).ty β) × Op (t.impl c).ty β))
    (hs : Along c ((t.impl c).machine c) ((t.impl c).Holds c)
      (fun env op v xs => (env.Valid ∧ env.Exact) ∧ op.WF c xs ∧ (t.impl c).Covered c env op v xs) ops v s) :
    (runOps c ((t.impl c).machine c) ops v).Meets
      (fun os v' => ∃ s', Tracks ((t.impl c).machine c) ((t.impl c).Holds c) v' s' ∧ Explains ops s os s' ∧
        (Along c ((t.impl c).machine c) ((t.impl c).Holds c) (fun env op v xs => ¬ (t.impl c).Short c env op v xs) ops v s →
          (os, s') = listRun ops s))
      (fun _ => False)
      (¬ Along c ((t.impl c).machine c) ((t.impl c).Holds c)
        (fun env op v xs => ¬ (t.impl c).Short c env op v xs ∧ ¬ op.Dies env.dropPanics xs) ops v s) := by
  have hL : ∀ A, t.impl c = .aligned A → A.Lawful c := fun _ => C70_lawful_partial hb hu ht hz
  generalize t.impl c = i at *
  cases i with
  | vec s' a => exact SVec.client.history ops v s h (hs.imp fun _ _ _ _ h => ⟨trivial, h.2⟩)
  | aligned A => exact (AVec.client (hL _ rfl)).history ops v s h (hs.imp fun _ _ _ _ h => ⟨h.1.1, h.2⟩)
  | unaligned T => exact (UVec.client True c T).history ops v s h (hs.imp fun _ _ _ _ h => ⟨⟨h.1.1, fun _ => h.1.2⟩, h.2⟩)

/-- C70: for every type, a program that adds and removes elements at the ends of a new vector does what it would do on a list. The
conditions are the same for all types. Partial: see `Op.AtEnds`. -/
theorem C70_ends_partial (hb : 0 < c.bits) (hu : IsAlign c c.usizeAlign) {t : RTy} (ht : t.Valid c) (hz : ¬ t.LosesLength)
    (ops : List (Env (Val (t.impl c).ty β) × Op (t.impl c).ty β))
    (hs : AlongList (fun env op xs => (env.Valid ∧ env.Exact) ∧ op.WF c xs ∧ op.AtEnds env xs) ops ⟨[], []⟩) :
    (runOps c ((t.impl c).machine c) ops ((t.impl c).new c)).Meets
      (fun os v' => ∃ s', Tracks ((t.impl c).machine c) ((t.impl c).Holds c) v' s' ∧ Explains ops ⟨[], []⟩ os s' ∧
        (Along c ((t.impl c).machine c) ((t.impl c).Holds c) (fun env op v xs => ¬ (t.impl c).Short c env op v xs) ops ((t.impl c).new c)
          ⟨[], []⟩ → (os, s') = listRun ops ⟨[], []⟩))
      (fun _ => False)
      (¬ Along c ((t.impl c).machine c) ((t.impl c).Holds c)
        (fun env op v xs => ¬ (t.impl c).Short c env op v xs ∧ ¬ op.Dies env.dropPanics xs) ops ((t.impl c).new c) ⟨[], []⟩) := by
  have hn := C70_new_partial (β := β) hb hu ht hz
  have hL : ∀ A, t.impl c = .aligned A → A.Lawful c := fun _ => C70_lawful_partial hb hu ht hz
  generalize t.impl c = i at *
  cases i with
  | vec s' a => exact C36_program_sized_partial hn ops (hs.imp fun _ _ _ h => ⟨h.2.1, SVec.covered_atEnds h.2.2⟩)
  | aligned A => exact C36_program_aligned_partial (hL _ rfl) hn ops (hs.imp fun _ _ _ h => ⟨h.1.1, h.2.1, AVec.covered_atEnds h.2.2⟩)
  | unaligned T =>
    exact C36_program_unaligned_plain_partial (greatest_isAlign hb) hn hu.le_greatest ops
      (hs.imp fun _ _ _ h => ⟨h.1, h.2.1, UVec.plain_atEnds h.2.1 h.2.2⟩)

/-- C70: for every type, a program creates a vector, adds and removes elements at its ends, and drops it. If dropping it returns, then all
values that the vector was given have been dropped once, or were moved out, and all memory has been returned. If it panics, the
destructor of one of the elements does. -/
theorem C70_life_partial (hb : 0 < c.bits) (hu : IsAlign c c.usizeAlign) {t : RTy} (ht : t.Valid c) (hz : ¬ t.LosesLength)
    (ops : List (Env (Val (t.impl c).ty β) × Op (t.impl c).ty β))
    (hs : AlongList (fun env op xs => (env.Valid ∧ env.Exact) ∧ op.WF c xs ∧ op.AtEnds env xs) ops ⟨[], []⟩)
    (env : Env (Val (t.impl c).ty β)) :
    (runLife c ((t.impl c).machine c) ops env ((t.impl c).new c)).Meets
      (fun _ v' => Accounted ops (((t.impl c).machine c).drops v') [] ∧ (t.impl c).Freed v')
      (fun v' => ∃ lost, Accounted ops (((t.impl c).machine c).drops v') lost ∧ ∃ x ∈ ((t.impl c).machine c).drops v', env.dropPanics x = true)
      True := by
  have hL : ∀ A, t.impl c = .aligned A → A.Lawful c := fun _ => C70_lawful_partial hb hu ht hz
  generalize t.impl c = i at *
  cases i with
  | vec s' a =>
    exact (C37_wholeLife_sized_partial ops (hs.imp fun _ _ _ h => ⟨h.2.1, SVec.covered_atEnds h.2.2⟩) env).mono (fun _ _ h => h)
      (fun _ h => ⟨[], h.1.1, h.2⟩) (fun _ => trivial)
  | aligned A =>
    refine (C37_wholeLife_aligned_partial (hL _ rfl) ops (hs.imp fun _ _ _ h => ⟨h.1.1, h.2.1, AVec.covered_atEnds h.2.2⟩) env).mono
      (fun _ _ h => h) ?_ (fun _ => trivial)
    rintro v' ⟨lost, ds, x, h1, h2, h3⟩
    exact ⟨lost, h3, x, by show x ∈ v'.drops; rw [h1]; simp, h2⟩
  | unaligned T =>
    refine (C37_wholeLife_unaligned_plain_partial (greatest_isAlign hb) hu hu.le_greatest ops
      (hs.imp fun _ _ _ h => ⟨h.1, h.2.1, UVec.plain_atEnds h.2.1 h.2.2⟩) env).mono (fun _ _ h => h) ?_ (fun _ => trivial)
    rintro v' ⟨lost, ds, x, h1, h2, h3⟩
    exact ⟨lost, h3, x, by show x ∈ v'.drops; rw [h1]; simp, h2⟩

end

/-! ## The hypotheses can be met -/

/-- `struct { a: u32, b: u8, last: [u16] }` -/
def tagged : DTy := .record 5 4 (.slice 2 2)

theorem tagged_valid : (RTy.unsized tagged).Valid c64 := ⟨⟨2, by decide, rfl⟩, ⟨1, by decide, rfl⟩, ⟨1, rfl⟩⟩

/-- Its last field starts at offset 6. With three elements it is 12 bytes long, with four elements 16 (two bytes of padding). -/
example : recordOffset 5 2 = 6 ∧ (tagged.ty c64).sizeOf (3 : Nat) = 12 ∧ (tagged.ty c64).sizeOf (4 : Nat) = 16 ∧
    (tagged.ty c64).alignOf (4 : Nat) = 4 := by decide

/-- A value of it, with `n` elements in the last field. -/
def tag (n k : Nat) : Val (RTy.impl c64 (.unsized tagged)).ty Nat := ⟨n, List.range' k ((tagged.ty c64).sizeOf n)⟩

theorem tag_wf (n k : Nat) (hn : (tagged.ty c64).sizeOf n ≤ 2 ^ 20) : (tag n k).WF c64 where
  bytes_len := List.length_range' ..
  align_pow := ⟨2, by decide, rfl⟩
  align_dvd := (C70_layout (c := c64) (by decide) tagged tagged_valid (n : Nat) trivial).2
  size_le := Nat.le_trans (Nat.add_le_add_right hn 3) (by decide)

/-- Adding at the end and in front, reading, and removing from both ends. -/
def progEnds : List (Env (Val (RTy.impl c64 (.unsized tagged)).ty Nat) × Op (RTy.impl c64 (.unsized tagged)).ty Nat) :=
  [(env, .push (tag 3 0)), (env, .insert 0 (tag 4 50)), (env, .pushWith (.value (tag 0 80))), (env, .get 1), (env, .remove 0 .take),
   (env, .len), (env, .pop .drop)]

theorem progEnds_ok :
    AlongList (fun env op xs => (env.Valid ∧ env.Exact) ∧ op.WF c64 xs ∧ op.AtEnds env xs) progEnds ⟨[], []⟩ := by
  have he := And.intro (env_valid (X := Val (RTy.impl c64 (.unsized tagged)).ty Nat)) (env_exact (X := Val (RTy.impl c64 (.unsized tagged)).ty Nat))
  have hp : ∀ n k, 0 < (tag n k).size := fun n k => Nat.lt_of_lt_of_le (show 0 < recordOffset 5 2 + n * 2 by show 0 < 6 + n * 2; omega)
    (C70_record (c := c64) 5 4 (.slice 2 2) (n : Nat) ⟨2, by decide, rfl⟩ ⟨1, by decide, rfl⟩).inside
  exact ⟨⟨he, tag_wf 3 0 (by decide), hp 3 0⟩, fun _ _ _ => ⟨⟨he, tag_wf 4 50 (by decide), hp 4 50, fun _ => rfl⟩, fun _ _ _ =>
    ⟨⟨he, tag_wf 0 80 (by decide), hp 0 80⟩, fun _ _ _ => ⟨⟨he, trivial, trivial⟩, fun _ _ _ =>
    ⟨⟨he, trivial, rfl, (by decide), fun h => nomatch h⟩, fun _ _ _ => ⟨⟨he, trivial, trivial⟩, fun _ _ _ =>
    ⟨⟨he, trivial, trivial⟩, fun _ _ _ => trivial⟩⟩⟩⟩⟩⟩⟩

section
attribute [local irreducible] Res.Meets

example : (runOps c64 ((RTy.impl c64 (.unsized tagged)).machine c64) progEnds ((RTy.impl c64 (.unsized tagged)).new c64)).Meets
    (fun os _ => ∃ s', Explains progEnds ⟨[], []⟩ os s') (fun _ => False) True :=
  (C70_ends_partial (t := .unsized tagged) (by decide) ⟨3, by decide, rfl⟩ tagged_valid (fun h => h) progEnds progEnds_ok).mono
    (fun _ _ ⟨s', _, h, _⟩ => ⟨s', h⟩) (fun _ h => h) (fun _ => trivial)

end

/-- The numbers in an observation. -/
def Out.numbers {T : UTy} : Out T Nat → List Nat
  | .value x => x.bytes
  | .number n => [n]
  | _ => []

/-- A test of the model: what the program observes. -/
example : (match runOps c64 ((RTy.impl c64 (.unsized tagged)).machine c64) progEnds ((RTy.impl c64 (.unsized tagged)).new c64) with
    | .ok os _ => some (os.map Out.numbers)
    | _ => none) = some [[], [], [], List.range 12, List.range' 50 16, [2], []] := by decide +kernel

/-- C70 is false of the code for slices of elements of size zero. -/
theorem C70_counterexample : ∃ A, RTy.impl c64 (.unsized (.slice 0 1)) = .aligned A ∧ ¬ A.Lawful c64 :=
  ⟨_, rfl, fun h => absurd (h.keeps (5 : Nat)) (by show ¬ (0 : Nat) = 5; decide)⟩

end Verif
