import Verif.Proofs.Unsize
import Verif.Props.FromSized
import Verif.Props.Sized

/-!
# C22: what becomes of an unsized vector

`unsize` with the allocation of its records, and the destruction of the vector it returns. All vectors of any length.
-/

namespace Verif
open Sample

section
variable {T : UTy} {A : ATy} {β : Type} [Inhabited β] {c : Cfg} {r : RawVec β} {xs : List (List β)}

/-- `unsize` to a dynamically aligned type, for every vector: it returns the vector computed by `from_sized` (with room for its
records) unless the records are too many (it panics) or their memory is refused (it aborts). An empty vector needs no
memory. Partial: the vector returned does not have the elements of the argument (`C22_unsize_unaligned_shifted`). -/
theorem C22_run_unaligned_partial (h : r.Holds c xs) (env : Env (Val T β)) (md : T.Meta) :
    (UVec.unsize c env r md ()).Meets
      (fun v _ => xs.length ≤ v.elemsCap ∧ UVec.fromSized c r md = some { v with elemsCap := xs.length })
      (fun _ => xs ≠ [] ∧ (c.infoMax < xs.length ∨ env.infoGrow xs.length = .error .capacityOverflow))
      (xs ≠ [] ∧ xs.length ≤ c.infoMax ∧ env.infoGrow xs.length = .error .allocError) := by
  have hne : 0 < xs.length → xs ≠ [] := fun h0 hn => by rw [hn] at h0; simp at h0
  refine (UVec.unsize_meets h env md).mono ?_ (fun _ h => ⟨hne h.1, h.2⟩) (fun h => ⟨hne h.1, h.2⟩)
  rintro v _ ⟨cap, hc, rfl⟩
  exact ⟨hc, UVec.fromSized_eq h md⟩

/-- The same for statically aligned types. -/
theorem C22_run_aligned_partial (h : r.Holds c xs) (ha : A.ALIGN = r.elemAlign) (env : Env (Val A.ty β)) (md : A.ty.Meta) :
    (AVec.unsize (A := A) c env r md ()).Meets
      (fun v _ => xs.length ≤ v.elemsCap ∧ AVec.fromSized c r md = some { v with elemsCap := xs.length })
      (fun _ => xs ≠ [] ∧ (c.infoMax < xs.length ∨ env.infoGrow xs.length = .error .capacityOverflow))
      (xs ≠ [] ∧ xs.length ≤ c.infoMax ∧ env.infoGrow xs.length = .error .allocError) := by
  have hne : 0 < xs.length → xs ≠ [] := fun h0 hn => by rw [hn] at h0; simp at h0
  refine (AVec.unsize_meets h ha env md).mono ?_ (fun _ h => ⟨hne h.1, h.2⟩) (fun h => ⟨hne h.1, h.2⟩)
  rintro v _ ⟨cap, hc, rfl⟩
  exact ⟨hc, AVec.fromSized_eq h ha.symm md⟩

/-- Unsizing a non-empty vector to a dynamically aligned type and dropping the result destroys the first element twice and
never the last one. The memory is freed. -/
theorem C22_drop_unaligned {x : List β} (h : r.Holds c (x :: xs)) {md : T.Meta} (hs : T.sizeOf md = r.elemSize)
    (ha : T.alignOf md = r.elemAlign) (env env' : Env (Val T β)) {v : UVec T β} (hv : UVec.unsize c env r md () = .ok v ()) :
    (UVec.drop c env' v).Meets
      (fun _ v' => (∀ y ∈ (x :: (x :: xs).dropLast).map (unsized md), env'.dropPanics y = false) ∧
        v'.drops = (x :: (x :: xs).dropLast).map (unsized md) ∧ v'.heap.block = none ∧ v'.heap.leaks = 0)
      (fun v' => StopsAt env'.dropPanics ((x :: (x :: xs).dropLast).map (unsized md)) v'.drops) False := by
  have := UVec.unsize_meets h env md
  rw [hv] at this
  obtain ⟨cap, _, rfl⟩ := this
  exact UVec.drop_shifted h env' hs ha cap

/-- The destructors that are run are those of the elements, each once, in some order, exactly when the first and the last
element are equal. -/
theorem C22_drop_unaligned_iff {x : List β} {md : T.Meta} :
    ((x :: (x :: xs).dropLast).map (unsized (T := T) md)).Perm ((x :: xs).map (unsized md)) ↔
      (x :: xs).getLast (by simp) = x := by
  classical
  have hinj : ∀ a b : List β, unsized (T := T) md a = unsized md b → a = b := by
    intro a b hab; cases hab; rfl
  have hsplit := List.dropLast_concat_getLast (l := x :: xs) (by simp)
  generalize hd : (x :: xs).dropLast = d at hsplit ⊢
  generalize hl : (x :: xs).getLast (by simp) = l at hsplit ⊢
  rw [← hsplit]
  constructor
  · intro hp
    have hq : (x :: d).map (unsized (T := T) md) |>.Perm ((l :: d).map (unsized md)) :=
      hp.trans ((List.perm_append_comm (l₁ := d) (l₂ := [l])).map _)
    have hc := hq.count_eq (unsized (T := T) md x)
    rw [List.map_cons, List.map_cons, List.count_cons_self, List.count_cons] at hc
    by_cases he : unsized (T := T) md l = unsized md x
    · exact hinj _ _ he
    · rw [if_neg (by simpa using he)] at hc; omega
  · intro he
    subst he
    exact ((List.perm_append_comm (l₁ := [l]) (l₂ := d))).map _

/-- Unsizing a non-empty vector to a slice type gives a valid vector of other elements: an empty one followed by all but
the last. Hence every theorem about vectors applies to it with that list. `h0` and `h1` hold for slices, whose
pointer metadata is their length. -/
theorem C22_unsize_aligned_holds (hA : A.Lawful c) (hX : A.Exact) {x : List β} (h : r.Holds c (x :: xs)) {md : A.ty.Meta}
    (hs : A.ty.sizeOf md = r.elemSize) (ha : A.ALIGN = r.elemAlign) (h0 : A.ty.sizeOf (A.dec (A.enc md) 0) = 0)
    (h1 : A.enc (A.dec (A.enc md) 0) = A.enc md) {env : Env (Val A.ty β)} {v : AVec A β} (hv : AVec.unsize c env r md () = .ok v ()) :
    v.Holds c (⟨A.dec (A.enc md) 0, []⟩ :: (x :: xs).dropLast.map (unsized md)) ∧ v.drops = [] := by
  have := AVec.unsize_meets h ha env md
  rw [hv] at this
  obtain ⟨cap, hc, rfl⟩ := this
  exact ⟨AVec.shiftedVec_holds hA hX h hs ha h0 h1 hc, rfl⟩

/-- Dropping it destroys the empty element, which nobody provided, and never the last one. -/
theorem C22_drop_aligned (hA : A.Lawful c) (hX : A.Exact) {x : List β} (h : r.Holds c (x :: xs)) {md : A.ty.Meta}
    (hs : A.ty.sizeOf md = r.elemSize) (ha : A.ALIGN = r.elemAlign) (h0 : A.ty.sizeOf (A.dec (A.enc md) 0) = 0)
    (h1 : A.enc (A.dec (A.enc md) 0) = A.enc md) (env env' : Env (Val A.ty β)) {v : AVec A β}
    (hv : AVec.unsize c env r md () = .ok v ()) :
    (AVec.drop c env' v).Meets
      (fun _ v' => (∀ y ∈ ⟨A.dec (A.enc md) 0, []⟩ :: (x :: xs).dropLast.map (unsized md), env'.dropPanics y = false) ∧
        v'.drops = ⟨A.dec (A.enc md) 0, []⟩ :: (x :: xs).dropLast.map (unsized md) ∧ v'.heap.block = none ∧ v'.heap.leaks = 0)
      (fun v' => StopsAt env'.dropPanics (⟨A.dec (A.enc md) 0, []⟩ :: (x :: xs).dropLast.map (unsized md)) v'.drops) False := by
  obtain ⟨hh, hd⟩ := C22_unsize_aligned_holds hA hX h hs ha h0 h1 hv
  refine (AVec.drop_meets hA.fits hh env').mono ?_ ?_ id
  · rintro _ v' ⟨g1, g2, g3⟩
    refine ⟨g1, ?_, g3⟩
    rw [g2, hd, List.nil_append]
  · rintro v' ⟨ds, g1, g2⟩
    rw [g2, hd, List.nil_append]; exact g1

/-- For types other than slices the panic is real only for tiny elements: with elements at least as large as a record
the records never are too many. -/
theorem C22_run_no_overflow (h : r.Holds c xs) (env : Env (Val T β)) (md : T.Meta) {rec : Nat} (hrec : 0 < rec)
    (hmax : c.infoMax = c.isizeMax / rec) (hle : rec ≤ r.elemSize)
    (hg : ∀ n, env.infoGrow n ≠ .error .capacityOverflow) : ∀ u, UVec.unsize c env r md () ≠ .panic u := by
  intro u hp
  have := UVec.unsize_meets h env md
  rw [hp] at this
  rcases this.2 with h1 | h1
  · have h2 : xs.length * rec ≤ c.isizeMax := by
      have a := h.mul_le (i := xs.length) (Nat.le_refl _)
      have b := h.capMax
      have d := VS.max_le_isizeMax c r.elemAlign
      have e : xs.length * rec ≤ xs.length * r.elemSize := Nat.mul_le_mul_left _ hle
      omega
    rw [hmax] at h1
    exact absurd ((Nat.le_div_iff_mul_le hrec).2 h2) (by omega)
  · exact hg _ h1

end

/-! ## Examples -/

/-- The hypotheses can be met. -/
example : ∃ v, UVec.unsize (T := Dyn) c64 env rawVec (2, 1) () = .ok v () ∧
    ∃ v', UVec.drop c64 env v = .ok () v' ∧ v'.drops = [dyn 1 [1, 2], dyn 1 [1, 2], dyn 1 [3, 4]] ∧ v'.heap.block = none :=
  ⟨_, rfl, _, rfl, rfl, rfl⟩

example : ∃ v, AVec.unsize (A := Bytes) c64 env rawVec (2 : Nat) () = .ok v () ∧
    v.Holds c64 [bytes [], bytes [1, 2], bytes [3, 4]] :=
  ⟨_, rfl, (C22_unsize_aligned_holds (bytes_lawful _ (.inl rfl)) (fun _ => rfl) rawVec_holds (md := (2 : Nat)) rfl rfl rfl rfl (env := env) rfl).1⟩

/-- C22 fails also in that the conversion can panic or abort: with refused memory for the records, … -/
theorem C22_counterexample_abort : UVec.unsize (T := Dyn) c64 { (env : Env (Val Dyn Nat)) with infoGrow := fun _ => .error .allocError } rawVec (2, 1) () =
    .abort := by rfl

/-- … or with more elements than there can be records (here on a machine with room for two). The elements are then never
destroyed and their memory is never freed. -/
theorem C22_counterexample_panic : UVec.unsize (T := Dyn) { c64 with infoMax := 2 } env rawVec (2, 1) () = .panic () := by rfl

end Verif
