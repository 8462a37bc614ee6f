import Verif.Spec.LagFlavio

/-! Tensor operators with down quarks and charged leptons in the Bern basis. -/

set_option autoImplicit false

namespace Verif.Spec

/-- The part of the operators with two and with four gamma matrices that is the product of two tensor currents:
`O_7` is such a product, and a product of four gamma matrices on each side is a scalar minus 16 times it. -/
noncomputable def tensorOps (N : ℂ) (y : String) : List NOp :=
  [⟨"7" ++ y, N, [(1, .sg .R .R)]⟩, ⟨"9" ++ y, N, [(-16, .sg .R .R)]⟩,
   ⟨"7p" ++ y, N, [(1, .sg .L .L)]⟩, ⟨"9p" ++ y, N, [(-16, .sg .L .L)]⟩]

/-- The tensor operators of `b -> s l l'` and `b -> d l l'`, with the coefficients of the Bern basis. -/
noncomputable def tensorSectors (GF : ℝ) : List NSector :=
  [(1, 2), (0, 2)].flatMap fun x => [0, 1, 2].flatMap fun l => [0, 1, 2].map fun l' =>
    ⟨(.d, x.1), (.d, x.2), (.e, l), (.e, l'), tensorOps ((4 * GF / Real.sqrt 2 : ℝ) : ℂ)
      (qname (.d, x.1) ++ (qname (.d, x.2) ++ (qname (.e, l) ++ qname (.e, l'))))⟩

end Verif.Spec
