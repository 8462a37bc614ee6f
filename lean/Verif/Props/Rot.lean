import Verif.Lemmas.SmeftLemmas
import Mathlib.LinearAlgebra.Matrix.Notation

/-! C29, C30 for dictionaries; C32, C33, C60: flavour rotations. -/

set_option autoImplicit false

namespace Verif

open Spec

theorem find_sym (C : Dict String Arr) (k : String) :
    Dict.find (C.filterMap fun p => (opOf p.1).map fun op => (p.1, complete op p.2)) k =
      (opOf k).bind fun op => (Dict.find C k).map (complete op) := by
  induction C with
  | nil => cases opOf k <;> rfl
  | cons p C ih =>
    obtain ⟨k', a⟩ := p
    rw [List.filterMap_cons]
    cases ho : opOf k' with
    | none =>
      simp only [Option.map_none]
      rw [ih, Dict.find_cons]
      by_cases h : k' = k
      · subst h; simp [ho]
      · simp [h]
    | some op =>
      simp only [Option.map_some, Dict.find_cons]
      by_cases h : k' = k
      · subst h; simp [ho]
      · simp only [h, if_false]; rw [ih]

theorem find_rot (C : Dict String Arr) (U : Rot) (k : String) :
    Dict.find (rotKeys.filterMap fun k => (Dict.find C k).map fun v =>
      (k, ((opOf k).map fun op => rotated op U.fld v).getD v)) k =
      (opOf k).bind fun op => (Dict.find C k).map (rotated op U.fld) := by
  have := find_filterMap_keys rotKeys rotKeys_nodup
    (fun k => (Dict.find C k).map fun v => ((opOf k).map fun op => rotated op U.fld v).getD v) k
  simp only [Option.map_map, Function.comp_def] at this
  rw [this]
  cases ho : opOf k with
  | none => rw [if_neg fun h => opOf_none ho ((mem_rotKeys k).1 h)]; rfl
  | some op => rw [if_pos ((mem_rotKeys k).2 ⟨op, opOf_isOp ho⟩)]; rfl

/-- **C29**, dictionaries: the completion succeeds on arrays of the right shape, keeps exactly the Wilson
coefficients, and each of them has the relations that its fermion content demands. -/
theorem C29_symmetrize (C : Dict String Arr) (h : Shaped C) : ∃ C', symmetrize C = .ok C' ∧
    (∀ k, k ∈ Dict.keys C' ↔ k ∈ Dict.keys C ∧ ∃ op, IsOp k op) ∧
    ∀ k a op, (k, a) ∈ C' → IsOp k op → Conforms op a := by
  refine ⟨_, symmetrize_eq C h, fun k => ?_, fun k a op hm ho => ?_⟩
  · rw [← Dict.find_isSome_iff, ← Dict.find_isSome_iff, find_sym]
    constructor
    · intro hs
      cases ho : opOf k with
      | none => rw [ho] at hs; simp at hs
      | some op => exact ⟨by simpa [ho] using hs, op, opOf_isOp ho⟩
    · rintro ⟨h1, op, h2⟩
      rw [opOf_eq h2]; simpa using h1
  · obtain ⟨⟨k', a'⟩, h1, h2⟩ := List.mem_filterMap.1 hm
    obtain ⟨op', ho', h3⟩ := Option.map_eq_some_iff.1 h2
    simp only [Prod.mk.injEq] at h3 ho'
    obtain ⟨rfl, rfl⟩ := h3
    obtain rfl := isOp_unique ho (opOf_isOp ho')
    exact complete_conforms (h k' a' op h1 ho)

/-- **C30**, dictionaries: coefficients that already have their relations are returned unchanged. -/
theorem C30_symmetrize (C : Dict String Arr) (hk : ∀ k ∈ Dict.keys C, ∃ op, IsOp k op)
    (h : ∀ k a op, (k, a) ∈ C → IsOp k op → Conforms op a) : symmetrize C = .ok C := by
  rw [symmetrize_eq C fun k a op hm ho => (h k a op hm ho).shape]
  congr 1
  rw [List.filterMap_congr (g := fun p => some p), List.filterMap_some]
  rintro ⟨k, a⟩ hm
  obtain ⟨op, ho⟩ := hk k (List.mem_map.2 ⟨_, hm, rfl⟩)
  rw [opOf_eq ho, Option.map_some, complete_fix (h k a op hm ho)]

/-- **C30**, dictionaries: completing twice is completing once. -/
theorem C30_symmetrize_twice (C C' : Dict String Arr) (h : Shaped C) (hC : symmetrize C = .ok C') :
    symmetrize C' = .ok C' := by
  obtain ⟨C'', h1, h2, h3⟩ := C29_symmetrize C h
  obtain rfl : C'' = C' := by simpa [hC] using h1.symm
  exact C30_symmetrize _ (fun k hk => ((h2 k).1 hk).2) h3

/-- **C60**: a rotation acts on every coefficient index by index with the matrix of the field of that index
(conjugated for barred fields), leaves the purely bosonic ones alone, and drops what is not a coefficient. -/
theorem C60_rotation (C : Dict String Arr) (U : Rot) (h : Shaped C) : ∃ C', flavorRotation C U = .ok C' ∧
    (∀ k, k ∈ Dict.keys C' ↔ k ∈ Dict.keys C ∧ ∃ op, IsOp k op) ∧
    ∀ k a, Dict.find C k = some a →
      (IsOp k .boson → Dict.find C' k = some a) ∧
      (∀ x y, IsOp k (.two x y) → ∃ m, a = .mat m ∧
        Dict.find C' k = some (.mat (rot2 (x.mat U.fld) (y.mat U.fld) m))) ∧
      (∀ x y z w, IsOp k (.four x y z w) → ∃ t, a = .ten t ∧
        Dict.find C' k = some (.ten (rot4 (x.mat U.fld) (y.mat U.fld) (z.mat U.fld) (w.mat U.fld) t))) := by
  refine ⟨_, flavorRotation_eq C U h, fun k => ?_, fun k a ha => ⟨fun ho => ?_, fun x y ho => ?_, fun x y z w ho => ?_⟩⟩
  · rw [← Dict.find_isSome_iff, ← Dict.find_isSome_iff, find_rot]
    constructor
    · intro hs
      cases ho : opOf k with
      | none => rw [ho] at hs; simp at hs
      | some op => exact ⟨by simpa [ho] using hs, op, opOf_isOp ho⟩
    · rintro ⟨h1, op, h2⟩
      rw [opOf_eq h2]; simpa using h1
  · rw [find_rot, opOf_eq ho, ha]; rfl
  · obtain ⟨m, rfl⟩ := h k a _ (Dict.mem_of_find ha) ho
    exact ⟨m, rfl, by rw [find_rot, opOf_eq ho, ha]; rfl⟩
  · obtain ⟨t, rfl⟩ := h k a _ (Dict.mem_of_find ha) ho
    exact ⟨t, rfl, by rw [find_rot, opOf_eq ho, ha]; rfl⟩

theorem rot_entries {C C' : Dict String Arr} {U : Rot} (h : Shaped C) (hC : flavorRotation C U = .ok C')
    {k : String} {a : Arr} {op : Op} (hm : (k, a) ∈ C') (ho : IsOp k op) :
    ∃ a', (k, a') ∈ C ∧ a = rotated op U.fld a' := by
  rw [flavorRotation_eq C U h] at hC
  obtain rfl := Except.ok.inj hC
  obtain ⟨k', h1, h2⟩ := List.mem_filterMap.1 hm
  obtain ⟨a', h3, h4⟩ := Option.map_eq_some_iff.1 h2
  simp only [Prod.mk.injEq] at h4
  obtain ⟨rfl, rfl⟩ := h4
  exact ⟨a', Dict.mem_of_find h3, by rw [opOf_eq ho]; rfl⟩

theorem rot_shaped {C C' : Dict String Arr} {U : Rot} (h : Shaped C) (hC : flavorRotation C U = .ok C') : Shaped C' := by
  intro k a op hm ho
  obtain ⟨a', h1, rfl⟩ := rot_entries h hC hm ho
  exact rotated_shape (h k a' op h1 ho)

/-- **C32**: rotations keep the relations, for arbitrary (also non-unitary) matrices. -/
theorem C32_rotation (C : Dict String Arr) (U : Rot) (h : ∀ k a op, (k, a) ∈ C → IsOp k op → Conforms op a) :
    ∃ C', flavorRotation C U = .ok C' ∧ ∀ k a op, (k, a) ∈ C' → IsOp k op → Conforms op a := by
  have hs : Shaped C := fun k a op hm ho => (h k a op hm ho).shape
  refine ⟨_, flavorRotation_eq C U hs, fun k a op hm ho => ?_⟩
  obtain ⟨a', h1, rfl⟩ := rot_entries hs (flavorRotation_eq C U hs) hm ho
  exact (h k a' op h1 ho).rotated _

/-- Field by field product of rotations. -/
def Rot.mul (U W : Rot) : Rot := ⟨U.q * W.q, U.u * W.u, U.d * W.d, U.l * W.l, U.e * W.e⟩

theorem Rot.fld_mul (U W : Rot) : (U.mul W).fld = fun f => U.fld f * W.fld f := by
  funext f; cases f <;> rfl

/-- **C33**: rotating by `U` and then by `W` is rotating by the product. -/
theorem C33_compose (C C' : Dict String Arr) (U W : Rot) (h : Shaped C) (hC : flavorRotation C U = .ok C') :
    flavorRotation C' W = flavorRotation C (U.mul W) := by
  rw [flavorRotation_eq C' W (rot_shaped h hC), flavorRotation_eq C (U.mul W) h]
  rw [flavorRotation_eq C U h] at hC
  obtain rfl := Except.ok.inj hC
  congr 1
  refine List.filterMap_congr fun k hk => ?_
  obtain ⟨op, ho⟩ := (mem_rotKeys k).1 hk
  rw [find_rot, opOf_eq ho]
  simp only [Option.map_some, Option.getD_some, Option.bind_some, Option.map_map, Function.comp_def, rotated_comp, Rot.fld_mul]

/-- **C33**: the inverse rotation restores every coefficient. -/
theorem C33_inverse (C C' : Dict String Arr) (U W : Rot) (h : Shaped C) (hC : flavorRotation C U = .ok C')
    (hUW : ∀ f, U.fld f * W.fld f = 1) : ∃ C'', flavorRotation C' W = .ok C'' ∧
      ∀ k op, IsOp k op → Dict.find C'' k = Dict.find C k := by
  rw [C33_compose C C' U W h hC]
  refine ⟨_, flavorRotation_eq C (U.mul W) h, fun k op ho => ?_⟩
  rw [find_rot, opOf_eq ho]
  have : (U.mul W).fld = fun _ => 1 := by rw [Rot.fld_mul]; funext f; exact hUW f
  simp only [this, Option.bind_some]
  cases Dict.find C k with
  | none => rfl
  | some v => simp [rotated_one]

/-- A case: the dipole of the up quark with an entry at (1, 2), rotated by a permutation of the doublets, has
the entry at (2, 2); its relations (none) and shape are as demanded. -/
example : ∃ C', flavorRotation [("uG", .mat fun i => if i = (0, 1) then 1 else 0)]
      ⟨!![0, 1, 0; 1, 0, 0; 0, 0, 1], 1, 1, 1, 1⟩ = .ok C' ∧
    ∃ m, Dict.find C' "uG" = some (.mat m) ∧ m (1, 1) = 1 ∧ m (0, 1) = 0 := by
  have hop : IsOp "uG" (.two (b .q) (n .u)) := by decide +kernel
  obtain ⟨C', h1, -, h2⟩ := C60_rotation [("uG", .mat fun i => if i = (0, 1) then 1 else 0)]
    ⟨!![0, 1, 0; 1, 0, 0; 0, 0, 1], 1, 1, 1, 1⟩ (by
      intro k a op hm ho
      simp only [List.mem_singleton, Prod.mk.injEq] at hm
      obtain ⟨rfl, rfl⟩ := hm
      obtain rfl := isOp_unique ho hop
      exact ⟨_, rfl⟩)
  obtain ⟨m, hm, h3⟩ := (h2 "uG" _ rfl).2.1 _ _ hop
  obtain rfl := Arr.mat.inj hm
  refine ⟨C', h1, _, h3, ?_, ?_⟩ <;>
    simp [rot2, Slot.mat, Rot.fld, Fin.sum_univ_three, b, n, Matrix.one_apply]

end Verif
